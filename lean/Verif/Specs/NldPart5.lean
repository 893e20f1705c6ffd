import Verif.Specs.NldHead

/-! specs/nld.hsl, part 5, generated by tools/gen_specs.py. -/

set_option Elab.async false

namespace Verif.Specs.Nld

open Hsl

def lines65 : List String := [
"    \"{,}l\"                                              -> \"l;\"\n",
"    \"m{@}\"                                              -> \"m;\"\n",
"    \"n{@}\"                                              -> \"n;\"\n",
"    \"l\"                                                 -> \"l,\"\n",
"    \"m\"                                                 -> \"m,\"\n",
"    \"n\"                                                 -> \"n,\"\n",
"    \"N\"                                                 -> \"N,\"\n",
"    \",,\"                                                -> \",\"\n",
"    \",;\"                                                -> \"\"\n",
"    \",l,\"                                               -> \"l,\"\n"]

theorem lines65_ok : Part false lang macros vars (str "rewrite") lines65 (str "rewrite") := by
  apply piece_of
  · dsimp only [lines65]; repeat (first | exact .nil | apply Spells.cons)
  · decide +kernel

def lines66 : List String := [
"    \",m,\"                                               -> \"m,\"\n",
"    \",n,\"                                               -> \"n,\"\n",
"    \",N,\"                                               -> \"N,\"\n",
"    \"l{m;|n;}\"                                          -> \"l,\"\n",
"    \";\"                                                 -> \"\"\n",
"    \"^a\"                                                -> \"&a\"\n",
"    \"^e\"                                                -> \"&e\"\n",
"    \"^i\"                                                -> \"&i\"\n",
"    \"^o\"                                                -> \"&o\"\n",
"    \"^O\"                                                -> \"&O\"\n"]

theorem lines66_ok : Part false lang macros vars (str "rewrite") lines66 (str "rewrite") := by
  apply piece_of
  · dsimp only [lines66]; repeat (first | exact .nil | apply Spells.cons)
  · decide +kernel

def lines67 : List String := [
"    \"^u\"                                                -> \"&u\"\n",
"    \"^U\"                                                -> \"&U\"\n",
"    \"^Q\"                                                -> \"&Q\"\n",
"    \"^J\"                                                -> \"&J\"\n",
"\n"]

theorem lines67_ok : Part false lang macros vars (str "rewrite") lines67 (str "rewrite") := by
  apply piece_of
  · dsimp only [lines67]; repeat (first | exact .nil | apply Spells.cons)
  · decide +kernel

def lines68 : List String := [
"transcribe:\n",
"    \"'\"    -> \"'\"\n",
"    \"b\"    -> \"ㅂ\"\n",
"    \"C\"    -> \"ㅊ\"\n",
"    \"d\"    -> \"ㄷ\"\n",
"    \"f\"    -> \"ㅍ\"\n",
"    \"g\"    -> \"ㅎ\"\n",
"    \"G\"    -> \"ㄱ\"\n",
"    \"h\"    -> \"ㅎ\"\n",
"    \"k,\"   -> \"-ㄱ\"\n",
"    \"k\"    -> \"ㅋ\"\n"]

theorem lines68_ok : Part false lang macros vars (str "rewrite") lines68 (str "transcribe") := by
  apply piece_of
  · dsimp only [lines68]; repeat (first | exact .nil | apply Spells.cons)
  · decide +kernel

def lines69 : List String := [
"    \"^l\"   -> \"ㄹ\"\n",
"    \"{,}l\" -> \"ㄹ\"\n",
"    \"l,\"   -> \"-ㄹ\"\n",
"    \"l\"    -> \"-ㄹㄹ\"\n",
"    \"m,\"   -> \"-ㅁ\"\n",
"    \"m\"    -> \"ㅁ\"\n",
"    \"n,\"   -> \"-ㄴ\"\n",
"    \"n\"    -> \"ㄴ\"\n",
"    \"N\"    -> \"-ㅇ\"\n",
"    \"p,\"   -> \"-ㅂ\"\n"]

theorem lines69_ok : Part false lang macros vars (str "transcribe") lines69 (str "transcribe") := by
  apply piece_of
  · dsimp only [lines69]; repeat (first | exact .nil | apply Spells.cons)
  · decide +kernel

def lines70 : List String := [
"    \"p\"    -> \"ㅍ\"\n",
"    \"r\"    -> \"ㄹ\"\n",
"    \"s\"    -> \"ㅅ\"\n",
"    \"t,\"   -> \"-ㅅ\"\n",
"    \"t\"    -> \"ㅌ\"\n",
"    \"v\"    -> \"ㅂ\"\n",
"    \"X\"    -> \"ㅎ\"\n",
"    \"z\"    -> \"ㅈ\"\n",
"    \"&\"    -> \"ㅇ\"\n",
"    \"Ja\"   -> \"ㅑ\"\n"]

theorem lines70_ok : Part false lang macros vars (str "transcribe") lines70 (str "transcribe") := by
  apply piece_of
  · dsimp only [lines70]; repeat (first | exact .nil | apply Spells.cons)
  · decide +kernel

def lines71 : List String := [
"    \"Je\"   -> \"ㅖ\"\n",
"    \"Ji\"   -> \"ㅣ\"\n",
"    \"Jo\"   -> \"ㅛ\"\n",
"    \"JO\"   -> \"ㅖ\"\n",
"    \"Ju\"   -> \"ㅠ\"\n",
"    \"JU\"   -> \"ㅠ\"\n",
"    \"JQ\"   -> \"ㅕ\"\n",
"    \"a\"    -> \"ㅏ\"\n",
"    \"e\"    -> \"ㅔ\"\n",
"    \"i\"    -> \"ㅣ\"\n"]

theorem lines71_ok : Part false lang macros vars (str "transcribe") lines71 (str "transcribe") := by
  apply piece_of
  · dsimp only [lines71]; repeat (first | exact .nil | apply Spells.cons)
  · decide +kernel

def lines72 : List String := [
"    \"o\"    -> \"ㅗ\"\n",
"    \"O\"    -> \"ㅚ\"\n",
"    \"u\"    -> \"ㅟ\"\n",
"    \"U\"    -> \"ㅜ\"\n",
"    \"Q\"    -> \"ㅓ\"\n",
"    \"Y\"    -> \"ㅡ\"\n",
"\n"]

theorem lines72_ok : Part false lang macros vars (str "transcribe") lines72 (str "transcribe") := by
  apply piece_of
  · dsimp only [lines72]; repeat (first | exact .nil | apply Spells.cons)
  · decide +kernel

def lines73 : List String := [
"test:\n",
"    \"Guido van Rossum\"                        -> \"히도 판로쉼\"\n",
"    \"Nicolaas\"                                -> \"니콜라스\"\n",
"    \"Rogier van der Weyden\"                   -> \"로히어르 판데르베이던\"\n",
"    \"Friesland\"                               -> \"프리슬란트\"\n",
"    \"Ryan Babel\"                              -> \"라이언 바벌\"\n",
"    \"Juliana Louise Emma Marie Wilhelmina\"    -> \"율리아나 루이서 에마 마리 빌헬미나\"\n",
"    \"Assen\"                                   -> \"아선\"\n",
"    \"Hendrik\"                                 -> \"헨드릭\"\n",
"    \"Asser\"                                   -> \"아서르\"\n",
"    \"Volcher\"                                 -> \"폴허르\"\n",
"    \"Bouwman\"                                 -> \"바우만\"\n",
"    \"Middelburg\"                              -> \"미델뷔르흐\"\n",
"    \"Baruch Spinoza\"                          -> \"바뤼흐 스피노자\"\n",
"    \"Zwolle\"                                  -> \"즈볼러\"\n",
"    \"Volcher Coiter\"                          -> \"폴허르 코이터르\"\n",
"    \"Pim Fortuyn\"                             -> \"핌 포르타윈\"\n",
"    \"Ronald Koeman\"                           -> \"로날트 쿠만\"\n",
"    \"Piet Mondriaan\"                          -> \"핏 몬드리안\"\n",
"    \"Campen\"                                  -> \"캄펀\"\n",
"    \"Roosendaal\"                              -> \"로센달\"\n",
"    \"moeite\"                                  -> \"무이터\"\n",
"    \"Joris Mathijsen\"                         -> \"요리스 마테이선\"\n",
"    \"Jongkind\"                                -> \"용킨트\"\n",
"    \"Waddeneilanden\"                          -> \"바데네일란던\"\n",
"    \"Corrie ten Boom\"                         -> \"코리 텐봄\"\n",
"    \"Annemarie Jorritsma\"                     -> \"아네마리 요리츠마\"\n",
"    \"Jan Leeghwater\"                          -> \"얀 레이흐바터르\"\n",
"    \"Jan Weltevree\"                           -> \"얀 벨테브레이\"\n",
"    \"’s-Gravenhage\"                           -> \"'스흐라벤하허\"\n",
"    \"Dirck Bouts\"                             -> \"디르크 바우츠\"\n",
"    \"Burgh-Haamstede\"                         -> \"뷔르흐함스테더\"\n",
"    \"Boer\"                                    -> \"부르\"\n",
"    \"Eijkman\"                                 -> \"에이크만\"\n",
"    \"hartig\"                                  -> \"하르터흐\"\n",
"    \"Bergen op Zoom\"                          -> \"베르헌옵좀\"\n",
"    \"Torenberg\"                               -> \"토렌베르흐\"\n",
"    \"Maarssen\"                                -> \"마르선\"\n",
"    \"Deventer\"                                -> \"데벤터르\"\n",
"    \"Paul\"                                    -> \"파울\"\n",
"    \"Veendam\"                                 -> \"페인담\"\n",
"    \"Hoop\"                                    -> \"호프\"\n",
"    \"Sharon den Adel\"                         -> \"샤론 덴아덜\"\n",
"    \"Maaikes\"                                 -> \"마이커스\"\n",
"    \"Zalm\"                                    -> \"잘름\"\n",
"    \"Zevenbergen\"                             -> \"제벤베르헌\"\n",
"    \"Joost Wolfswinkel\"                       -> \"요스트 볼프스빙컬\"\n",
"    \"Birdaard\"                                -> \"비르다르트\"\n",
"    \"Breskens\"                                -> \"브레스컨스\"\n",
"    \"Frits Bolkestein\"                        -> \"프리츠 볼케스테인\"\n",
"    \"Claus Sluter\"                            -> \"클라우스 슬뤼터르\"\n",
"    \"Coevorden\"                               -> \"쿠보르던\"\n",
"    \"Diremond\"                                -> \"디레몬트\"\n",
"    \"Veldhoven\"                               -> \"펠트호번\"\n",
"    \"Gabriël Metsu\"                           -> \"가브리엘 메취\"\n",
"    \"Kloosterhaar\"                            -> \"클로스테르하르\"\n",
"    \"Pieter van den Hoogenband\"               -> \"피터르 판덴호헨반트\"\n",
"    \"Eindhoven\"                               -> \"에인트호번\"\n",
"    \"Hengelo\"                                 -> \"헹엘로\"\n",
"    \"Hugo de Vries\"                           -> \"휘호 더프리스\"\n"]

theorem lines73_ok : Part false lang macros vars (str "transcribe") lines73 (str "test") := by
  apply piece_of
  · dsimp only [lines73]; repeat (first | exact .nil | apply Spells.cons)
  · decide +kernel

def lines74 : List String := [
"    \"Jan Huygen van Linschoten\"               -> \"얀 하위헌 판린스호턴\"\n",
"    \"Adriaen van de Velde\"                    -> \"아드리안 판더펠더\"\n",
"    \"Petrus\"                                  -> \"페트뤼스\"\n",
"    \"Lieuwma\"                                 -> \"리우마\"\n",
"    \"Utrecht\"                                 -> \"위트레흐트\"\n",
"    \"Herkenbosch\"                             -> \"헤르켄보스\"\n",
"    \"Hendrik Antoon Lorentz\"                  -> \"헨드릭 안톤 로렌츠\"\n",
"    \"Arjen Robben\"                            -> \"아르연 로번\"\n",
"    \"Paul Menkveld\"                           -> \"파울 멩크벨트\"\n",
"    \"Edwin van der Sar\"                       -> \"에드빈 판데르사르\"\n",
"    \"Vriezenveen\"                             -> \"프리젠베인\"\n",
"    \"Uden\"                                    -> \"위던\"\n",
"    \"Tilburg\"                                 -> \"틸뷔르흐\"\n",
"    \"Johan Cruijff\"                           -> \"요한 크라위프\"\n",
"    \"Kok\"                                     -> \"콕\"\n",
"    \"Rinus Michels\"                           -> \"리뉘스 미헐스\"\n",
"    \"Anton Corbijn\"                           -> \"안톤 코르베인\"\n",
"    \"Hugo van der Goes\"                       -> \"휘호 판데르후스\"\n",
"    \"cyaan\"                                   -> \"시안\"\n",
"    \"Marc Overmars\"                           -> \"마르크 오버르마르스\"\n",
"    \"Tiele\"                                   -> \"틸러\"\n",
"    \"Dirk Kuyt\"                               -> \"디르크 카위트\"\n",
"    \"Emmeloord\"                               -> \"에멜로르트\"\n",
"    \"Bolkestein\"                              -> \"볼케스테인\"\n",
"    \"Pieter\"                                  -> \"피터르\"\n",
"    \"Kerkrade\"                                -> \"케르크라더\"\n",
"    \"Tobias\"                                  -> \"토비아스\"\n",
"    \"Theo Bos\"                                -> \"테오 보스\"\n",
"    \"Wieringerwerf\"                           -> \"비링에르버르프\"\n",
"    \"Jaap de Hoop Scheffer\"                   -> \"야프 더호프 스헤퍼르\"\n",
"    \"Nieuwe Niedorp\"                          -> \"니우어니도르프\"\n",
"    \"Winterswijk\"                             -> \"빈테르스베이크\"\n",
"    \"Johan de Witt\"                           -> \"요한 더빗\"\n",
"    \"Mark van Bommel\"                         -> \"마르크 판보멀\"\n",
"    \"Louis van Gaal\"                          -> \"루이 판할\"\n",
"    \"Dronten\"                                 -> \"드론턴\"\n",
"    \"sabel\"                                   -> \"사벌\"\n",
"    \"Bram\"                                    -> \"브람\"\n",
"    \"topic\"                                   -> \"토픽\"\n",
"    \"Tobias Michael Carel Asser\"              -> \"토비아스 미카엘 카럴 아서르\"\n",
"    \"Mark Rutte\"                              -> \"마르크 뤼터\"\n",
"    \"Maastricht\"                              -> \"마스트리흐트\"\n",
"    \"Amersfoort\"                              -> \"아메르스포르트\"\n",
"    \"Heike Kamerlingh Onnes\"                  -> \"헤이커 카메를링 오너스\"\n",
"    \"Schiphol\"                                -> \"스히폴\"\n",
"    \"Gerard ’t Hooft\"                         -> \"헤라르트 엇호프트\"\n",
"    \"Nikolaas Tinbergen\"                      -> \"니콜라스 틴베르헌\"\n",
"    \"Huizinga\"                                -> \"하위징아\"\n",
"    \"Sloten\"                                  -> \"슬로턴\"\n",
"    \"Harlingen\"                               -> \"하를링언\"\n",
"    \"Christiaan Huygens\"                      -> \"크리스티안 하위헌스\"\n",
"    \"Jan Swammerdam\"                          -> \"얀 스바메르담\"\n",
"    \"fraai\"                                   -> \"프라이\"\n",
"    \"Albert Verwey\"                           -> \"알버르트 페르베이\"\n",
"    \"Ceelen\"                                  -> \"세일런\"\n",
"    \"Martinus Veltman\"                        -> \"마르티뉘스 펠트만\"\n",
"    \"Wolvega\"                                 -> \"볼베하\"\n",
"    \"Simon Stevin\"                            -> \"시몬 스테빈\"\n"]

theorem lines74_ok : Part false lang macros vars (str "test") lines74 (str "test") := by
  apply piece_of
  · dsimp only [lines74]; repeat (first | exact .nil | apply Spells.cons)
  · decide +kernel

def lines75 : List String := [
"    \"Heineken\"                                -> \"헤이네컨\"\n",
"    \"Kapteyn\"                                 -> \"캅테인\"\n",
"    \"Lucas van Leyden\"                        -> \"뤼카스 판레이던\"\n",
"    \"Terschelling\"                            -> \"테르스헬링\"\n",
"    \"Els Borst\"                               -> \"엘스 보르스트\"\n",
"    \"Sittarad\"                                -> \"시타라트\"\n",
"    \"Hendrik Hamel\"                           -> \"헨드릭 하멜\"\n",
"    \"Beverwijk\"                               -> \"베베르베이크\"\n",
"    \"Ede\"                                     -> \"에더\"\n",
"    \"Markermeer\"                              -> \"마르케르메이르\"\n",
"    \"Leo Beenhakker\"                          -> \"레오 베인하커르\"\n",
"    \"september\"                               -> \"셉템버르\"\n",
"    \"Inge\"                                    -> \"잉어\"\n",
"    \"Buys Ballot\"                             -> \"바위스 발롯\"\n",
"    \"brik\"                                    -> \"브릭\"\n",
"    \"Michael Dudok de Wit\"                    -> \"미카엘 뒤독 더빗\"\n",
"    \"Enkhuizen\"                               -> \"엥크하위전\"\n",
"    \"Willem-Alexander Claus George Ferdinand\" -> \"빌럼알렉산더르 클라우스 헤오르허 페르디난트\"\n",
"    \"Phillip Cocu\"                            -> \"필립 코퀴\"\n",
"    \"Willem Mengelberg\"                       -> \"빌럼 멩엘베르흐\"\n",
"    \"Willem Blaeu\"                            -> \"빌럼 블라우\"\n",
"    \"Frank de Boer\"                           -> \"프랑크 더부르\"\n",
"    \"Marco van Basten\"                        -> \"마르코 판바스턴\"\n",
"    \"Stein\"                                   -> \"스테인\"\n",
"    \"Tinbergen\"                               -> \"틴베르헌\"\n",
"    \"Nieuwegein\"                              -> \"니우에헤인\"\n",
"    \"Hendrik Willem van Loon\"                 -> \"헨드릭 빌럼 판론\"\n",
"    \"Pieter de Hooch\"                         -> \"피터르 더호흐\"\n",
"    \"Doesburg\"                                -> \"두스뷔르흐\"\n",
"    \"Rik Smits\"                               -> \"릭 스미츠\"\n",
"    \"Erp\"                                     -> \"에르프\"\n",
"    \"Joop Zoetemelk\"                          -> \"요프 주테멜크\"\n",
"    \"IJsselmeer\"                              -> \"에이설메이르\"\n",
"    \"Alkmaar\"                                 -> \"알크마르\"\n",
"    \"Michael\"                                 -> \"미카엘\"\n",
"    \"Wim Kok\"                                 -> \"빔 콕\"\n",
"    \"Pieter Camper\"                           -> \"피터르 캄퍼르\"\n",
"    \"Schagen\"                                 -> \"스하헌\"\n",
"    \"Rem Koolhaas\"                            -> \"렘 콜하스\"\n",
"    \"Nicolaas Beets\"                          -> \"니콜라스 베이츠\"\n",
"    \"Helmond\"                                 -> \"헬몬트\"\n",
"    \"Edsger Dijkstra\"                         -> \"에츠허르 데이크스트라\"\n",
"    \"Wolfswinkel\"                             -> \"볼프스빙컬\"\n",
"    \"Vlissingen\"                              -> \"플리싱언\"\n",
"    \"Jeroen\"                                  -> \"예룬\"\n",
"    \"Naarden\"                                 -> \"나르던\"\n",
"    \"Nijmegen\"                                -> \"네이메헌\"\n",
"    \"Wanroij\"                                 -> \"반로이\"\n",
"    \"Borne\"                                   -> \"보르너\"\n",
"    \"Klaas-Jan Huntelaar\"                     -> \"클라스얀 휜텔라르\"\n",
"    \"Roermond\"                                -> \"루르몬트\"\n",
"    \"Jan Ingenhousz\"                          -> \"얀 잉엔하우스\"\n",
"    \"Johannes Diderik van der Waals\"          -> \"요하네스 디데릭 판데르발스\"\n",
"    \"Gennip\"                                  -> \"헤닙\"\n",
"    \"Schoonhoven\"                             -> \"스혼호번\"\n",
"    \"Bernhard Leopold\"                        -> \"베른하르트 레오폴트\"\n",
"    \"Pieter Kooijmans\"                        -> \"피터르 코이만스\"\n",
"    \"Paul Crutzen\"                            -> \"파울 크뤼천\"\n"]

theorem lines75_ok : Part false lang macros vars (str "test") lines75 (str "test") := by
  apply piece_of
  · dsimp only [lines75]; repeat (first | exact .nil | apply Spells.cons)
  · decide +kernel

def lines76 : List String := [
"    \"Ferwerd\"                                 -> \"페르버르트\"\n",
"    \"Wadden\"                                  -> \"바던\"\n",
"    \"overkomst\"                               -> \"오버르콤스트\"\n",
"    \"Robin van Persie\"                        -> \"로빈 판페르시\"\n",
"    \"Leiden\"                                  -> \"레이던\"\n",
"    \"Marianne Vos\"                            -> \"마리아너 포스\"\n",
"    \"Texel\"                                   -> \"텍설\"\n",
"    \"Witmarsum\"                               -> \"비트마르쉼\"\n",
"    \"Marleen Veldhuis\"                        -> \"마를레인 펠드하위스\"\n",
"    \"Zandvoort\"                               -> \"잔드보르트\"\n",
"    \"Verwey\"                                  -> \"페르베이\"\n",
"    \"Hans van Ginkel\"                         -> \"한스 판힝컬\"\n",
"    \"Grave\"                                   -> \"흐라버\"\n",
"    \"Arnhem\"                                  -> \"아른험\"\n",
"    \"Aartsen\"                                 -> \"아르천\"\n",
"    \"Kessel\"                                  -> \"케설\"\n",
"    \"Breda\"                                   -> \"브레다\"\n",
"    \"Yvonne van Gennip\"                       -> \"이보너 판헤닙\"\n",
"    \"Vlaardingen\"                             -> \"플라르딩언\"\n",
"    \"duwen\"                                   -> \"뒤언\"\n",
"    \"Urk\"                                     -> \"위르크\"\n",
"    \"Vries\"                                   -> \"프리스\"\n",
"    \"Venlo\"                                   -> \"펜로\"\n",
"    \"Den Haag\"                                -> \"덴하흐\"\n",
"    \"Jozef Israëls\"                           -> \"요제프 이스라엘스\"\n",
"    \"Heerlen\"                                 -> \"헤이를런\"\n",
"    \"Willebrord Snel van Royen\"               -> \"빌레브로르트 스넬 판로이언\"\n",
"    \"Frank de Grave\"                          -> \"프랑크 더흐라버\"\n",
"    \"Jacobus Henricus van ’t Hoff\"            -> \"야코뷔스 헨리퀴스 판엇호프\"\n",
"    \"Theo van Gogh\"                           -> \"테오 반고흐\"\n",
"    \"Gerard Unger\"                            -> \"헤라르트 윙어르\"\n",
"    \"Ballot\"                                  -> \"발롯\"\n",
"    \"Haag\"                                    -> \"하흐\"\n",
"    \"Lasso\"                                   -> \"라소\"\n",
"    \"Frans Hals\"                              -> \"프란스 할스\"\n",
"    \"Vondel\"                                  -> \"폰덜\"\n",
"    \"Willem Barentsz\"                         -> \"빌럼 바렌츠\"\n",
"    \"Goes\"                                    -> \"후스\"\n",
"    \"Hoogezand-Sappemeer\"                     -> \"호헤잔트사페메이르\"\n",
"    \"Gorinchem\"                               -> \"호린험\"\n",
"    \"Dick Advocaat\"                           -> \"딕 아드보카트\"\n",
"    \"Waalwijk\"                                -> \"발베이크\"\n",
"    \"Gelderland\"                              -> \"헬데를란트\"\n",
"    \"Tiel\"                                    -> \"틸\"\n",
"    \"Emmen\"                                   -> \"에먼\"\n",
"    \"Koopmans\"                                -> \"코프만스\"\n",
"    \"Hoorn\"                                   -> \"호른\"\n",
"    \"Andelst\"                                 -> \"안델스트\"\n",
"    \"Roordahuizum\"                            -> \"로르다하위쥠\"\n",
"    \"Lauwersmeer\"                             -> \"라우에르스메이르\"\n",
"    \"Evert Bloemsma\"                          -> \"에버르트 블룸스마\"\n",
"    \"Boeijinga\"                               -> \"부잉아\"\n",
"    \"Onnes\"                                   -> \"오너스\"\n",
"    \"Jan Baptista van Helmont\"                -> \"얀 밥티스타 판헬몬트\"\n",
"    \"Rieuwers\"                                -> \"리우어르스\"\n",
"    \"Berlage\"                                 -> \"베를라허\"\n",
"    \"Reinier de Graaf\"                        -> \"레이니어르 더흐라프\"\n",
"    \"Inge de Bruijn\"                          -> \"잉어 더브라윈\"\n",
"    \"Willem Johan Kolff\"                      -> \"빌럼 요한 콜프\"\n",
"    \"Zierikzee\"                               -> \"지릭제이\"\n"]

theorem lines76_ok : Part false lang macros vars (str "test") lines76 (str "test") := by
  apply piece_of
  · dsimp only [lines76]; repeat (first | exact .nil | apply Spells.cons)
  · decide +kernel

def lines77 : List String := [
"    \"Vlieland\"                                -> \"플릴란트\"\n",
"    \"Marsdiep\"                                -> \"마르스딥\"\n",
"    \"Katwijk aan Zee\"                         -> \"카트베이크안제이\"\n",
"    \"Franciscus\"                              -> \"프란시스퀴스\"\n",
"    \"Jan Peter Balkenende\"                    -> \"얀 페터르 발케넨더\"\n",
"    \"Gerard ter Borch\"                        -> \"헤라르트 테르보르흐\"\n",
"    \"Wijchen\"                                 -> \"베이헌\"\n",
"    \"Spijkenisse\"                             -> \"스페이케니서\"\n",
"    \"Hellevoetsluis\"                          -> \"헬레부츨라위스\"\n",
"    \"Mark Tuitert\"                            -> \"마르크 타위터르트\"\n",
"    \"Hapert\"                                  -> \"하퍼르트\"\n",
"    \"Peter\"                                   -> \"페터르\"\n",
"    \"Capelle aan de Ijssel\"                   -> \"카펠러안더에이설\"\n",
"    \"Culemborg\"                               -> \"퀼렘보르흐\"\n",
"    \"Booisman\"                                -> \"보이스만\"\n",
"    \"Ommen\"                                   -> \"오먼\"\n",
"    \"Teun de Nooijer\"                         -> \"퇸 더노이여르\"\n",
"    \"Hans van den Broek\"                      -> \"한스 판덴브룩\"\n",
"    \"Boxtel\"                                  -> \"복스털\"\n",
"    \"De Stijl\"                                -> \"더스테일\"\n",
"    \"Hals\"                                    -> \"할스\"\n",
"    \"Noord-Holland\"                           -> \"노르트홀란트\"\n",
"    \"Drenthe\"                                 -> \"드렌터\"\n",
"    \"Oldenzaal\"                               -> \"올덴잘\"\n",
"    \"Zeeland\"                                 -> \"제일란트\"\n",
"    \"Dordrecht\"                               -> \"도르드레흐트\"\n",
"    \"Waddenzee\"                               -> \"바덴제이\"\n",
"    \"Appingedam\"                              -> \"아핑에담\"\n",
"    \"Uithuizen\"                               -> \"아위트하위전\"\n",
"    \"Delft\"                                   -> \"델프트\"\n",
"    \"Terneuzen\"                               -> \"테르뇌전\"\n",
"    \"Wesley Sneijder\"                         -> \"베슬리 스네이더르\"\n",
"    \"Orlando di Lasso\"                        -> \"오를란도 디라소\"\n",
"    \"Kraggenburg\"                             -> \"크라헨뷔르흐\"\n",
"    \"Philippine\"                              -> \"필리피너\"\n",
"    \"Herman Heijermans\"                       -> \"헤르만 헤이예르만스\"\n",
"    \"Hooites\"                                 -> \"호이터스\"\n",
"    \"Amsterdam\"                               -> \"암스테르담\"\n",
"    \"Benk\"                                    -> \"벵크\"\n",
"    \"Franeker\"                                -> \"프라네커르\"\n",
"    \"Willem de Kooning\"                       -> \"빌럼 더코닝\"\n",
"    \"Waal\"                                    -> \"발\"\n",
"    \"Sluis\"                                   -> \"슬라위스\"\n",
"    \"Johan Jongkind\"                          -> \"요한 용킨트\"\n",
"    \"André Rouvoet\"                           -> \"안드레 라우붓\"\n",
"    \"Bedum\"                                   -> \"베뒴\"\n",
"    \"Jakob\"                                   -> \"야코프\"\n",
"    \"drieëntwintig\"                           -> \"드리엔트빈터흐\"\n",
"    \"Herman Boerhaave\"                        -> \"헤르만 부르하버\"\n",
"    \"Lelystad\"                                -> \"렐리스타트\"\n",
"    \"Westkapelle\"                             -> \"베스트카펠러\"\n",
"    \"Geertgen tot Sint Jans\"                  -> \"헤이르트헌 톳신트얀스\"\n",
"    \"Scharendijke\"                            -> \"스하렌데이커\"\n",
"    \"Arnold Geulincx\"                         -> \"아르놀트 횔링크스\"\n",
"    \"Harderwijk\"                              -> \"하르데르베이크\"\n",
"    \"Jacob\"                                   -> \"야코프\"\n",
"    \"Benk Korthals\"                           -> \"벵크 코르탈스\"\n",
"    \"Ruud Gullit\"                             -> \"뤼트 휠릿\"\n"]

theorem lines77_ok : Part false lang macros vars (str "test") lines77 (str "test") := by
  apply piece_of
  · dsimp only [lines77]; repeat (first | exact .nil | apply Spells.cons)
  · decide +kernel

def lines78 : List String := [
"    \"Jakob Arcadelt\"                          -> \"야코프 아르카덜트\"\n",
"    \"Jan Tinbergen\"                           -> \"얀 틴베르헌\"\n",
"    \"natie\"                                   -> \"나시\"\n",
"    \"Abel Tasman\"                             -> \"아벌 타스만\"\n",
"    \"Kees\"                                    -> \"케이스\"\n",
"    \"Zuid-Holland\"                            -> \"자위트홀란트\"\n",
"    \"Meindert Hobbema\"                        -> \"메인더르트 호베마\"\n",
"    \"Antoni van Leeuwenhoek\"                  -> \"안토니 판레이우엔훅\"\n",
"    \"Zevenaar\"                                -> \"제베나르\"\n",
"    \"Annette Gerritsen\"                       -> \"아네터 헤리천\"\n",
"    \"Koenraad\"                                -> \"쿤라트\"\n",
"    \"Nicolien Sauerbreij\"                     -> \"니콜린 사우에르브레이\"\n",
"    \"fetisj\"                                  -> \"페티시\"\n",
"    \"Kees van Dongen\"                         -> \"케이스 판동언\"\n",
"    \"Hilversum\"                               -> \"힐베르쉼\"\n",
"    \"Paul Verhoeven\"                          -> \"파울 페르후번\"\n",
"    \"Wim Duisenberg\"                          -> \"빔 다위센베르흐\"\n",
"    \"Ruud Lubbers\"                            -> \"뤼트 뤼버르스\"\n",
"    \"Eibergen\"                                -> \"에이베르헌\"\n",
"    \"Deurne\"                                  -> \"되르너\"\n",
"    \"Creil\"                                   -> \"크레일\"\n",
"    \"Ameland\"                                 -> \"아멜란트\"\n",
"    \"Hugo de Groot\"                           -> \"휘호 더흐로트\"\n",
"    \"Ireen Wüst\"                              -> \"이레인 뷔스트\"\n",
"    \"Tiësto\"                                  -> \"티에스토\"\n",
"    \"Heerde\"                                  -> \"헤이르더\"\n",
"    \"Zaandam\"                                 -> \"잔담\"\n",
"    \"Egmont\"                                  -> \"에흐몬트\"\n",
"    \"Boerhaave\"                               -> \"부르하버\"\n",
"    \"Overijssel\"                              -> \"오버레이설\"\n",
"    \"Mark Huizinga\"                           -> \"마르크 하위징아\"\n",
"    \"Barneveld\"                               -> \"바르네벨트\"\n",
"    \"Jacobus Cornelius Kapteyn\"               -> \"야코뷔스 코르넬리위스 캅테인\"\n",
"    \"Den Bosch\"                               -> \"덴보스\"\n",
"    \"Borst\"                                   -> \"보르스트\"\n",
"    \"Edgar\"                                   -> \"엣하르\"\n",
"    \"Ruud van Nistelrooy\"                     -> \"뤼트 판니스텔로이\"\n",
"    \"Edgar Davids\"                            -> \"엣하르 다비츠\"\n",
"    \"Hobbema\"                                 -> \"호베마\"\n",
"    \"Jozias van Aartsen\"                      -> \"요지아스 판아르천\"\n",
"    \"Herman Gorter\"                           -> \"헤르만 호르터르\"\n",
"    \"Castricum\"                               -> \"카스트리큄\"\n",
"    \"Dokkum\"                                  -> \"도큄\"\n",
"    \"Schiermonnikoog\"                         -> \"스히르모니코흐\"\n",
"    \"Weltevree\"                               -> \"벨테브레이\"\n",
"    \"Almelo\"                                  -> \"알멜로\"\n",
"    \"Luyksgestel\"                             -> \"라위크스헤스털\"\n",
"    \"Beilen\"                                  -> \"베일런\"\n",
"    \"Pieter Zeeman\"                           -> \"피터르 제이만\"\n",
"    \"Bram Peper\"                              -> \"브람 페퍼르\"\n",
"    \"Middelharnis\"                            -> \"미델하르니스\"\n",
"    \"Euwen\"                                   -> \"에위언\"\n",
"    \"draaien\"                                 -> \"드라이언\"\n",
"    \"Kollum\"                                  -> \"콜륌\"\n",
"    \"Flevoland\"                               -> \"플레볼란트\"\n",
"    \"Duisenberg\"                              -> \"다위센베르흐\"\n",
"    \"Jacob van Campen\"                        -> \"야코프 판캄펀\"\n",
"    \"carré\"                                   -> \"카레\"\n",
"    \"Guus Hiddink\"                            -> \"휘스 히딩크\"\n"]

theorem lines78_ok : Part false lang macros vars (str "test") lines78 (str "test") := by
  apply piece_of
  · dsimp only [lines78]; repeat (first | exact .nil | apply Spells.cons)
  · decide +kernel

def lines79 : List String := [
"    \"Patrick Kluivert\"                        -> \"파트릭 클라위버르트\"\n",
"    \"Karel van Mander\"                        -> \"카럴 판만더르\"\n",
"    \"Groningen\"                               -> \"흐로닝언\"\n",
"    \"Hendricus\"                               -> \"헨드리퀴스\"\n",
"    \"Etten-Leur\"                              -> \"에턴뢰르\"\n",
"    \"Jan Gossaert\"                            -> \"얀 호사르트\"\n",
"    \"Apeldoorn\"                               -> \"아펠도른\"\n",
"    \"Meeuwes\"                                 -> \"메이우어스\"\n",
"    \"Den Helder\"                              -> \"덴헬더르\"\n",
"    \"Harry Mulisch\"                           -> \"하리 뮐리스\"\n",
"    \"Frits Zernike\"                           -> \"프리츠 제르니커\"\n",
"    \"Oosterhout\"                              -> \"오스테르하우트\"\n",
"    \"Edith van Dijk\"                          -> \"에딧 판데이크\"\n",
"    \"Cees Nooteboom\"                          -> \"케이스 노테봄\"\n",
"    \"Giovanni van Bronckhorst\"                -> \"조바니 판브롱크호르스트\"\n",
"    \"Christiaan Eijkman\"                      -> \"크리스티안 에이크만\"\n",
"    \"Heerenveen\"                              -> \"헤이렌베인\"\n",
"    \"huisje\"                                  -> \"하위셔\"\n",
"    \"Eemskanaal\"                              -> \"에임스카날\"\n",
"    \"André Ooijer\"                            -> \"안드레 오이여르\"\n",
"    \"Jacob van Ruisdael\"                      -> \"야코프 판라위스달\"\n",
"    \"Geert Wilders\"                           -> \"헤이르트 빌더르스\"\n",
"    \"Nicolaas Bloembergen\"                    -> \"니콜라스 블룸베르헌\"\n",
"    \"Karien van Gennip\"                       -> \"카린 판헤닙\"\n",
"    \"Rembrandt Harmenszoon van Rijn\"          -> \"렘브란트 하르먼스존 판레인\"\n",
"    \"Clarence Seedorf\"                        -> \"클라렌서 세이도르프\"\n",
"    \"Veenendal\"                               -> \"페이넨달\"\n",
"    \"Rafaël van der Vaart\"                    -> \"라파엘 판데르파르트\"\n",
"    \"sjaal\"                                   -> \"샬\"\n",
"    \"Limburg\"                                 -> \"림뷔르흐\"\n",
"    \"Graaf\"                                   -> \"흐라프\"\n",
"    \"Cornelis Jansen\"                         -> \"코르넬리스 얀선\"\n",
"    \"Simon van der Meer\"                      -> \"시몬 판데르메이르\"\n",
"    \"Frederik\"                                -> \"프레데릭\"\n",
"    \"Cornelis Petrus Tiele\"                   -> \"코르넬리스 페트뤼스 틸러\"\n",
"    \"Drachten\"                                -> \"드라흐턴\"\n",
"    \"Karel Appel\"                             -> \"카럴 아펄\"\n",
"    \"Berkhout\"                                -> \"베르크하우트\"\n",
"    \"kwitantie\"                               -> \"크비탄시\"\n",
"    \"Steeswijk\"                               -> \"스테이스베이크\"\n",
"    \"Johannes Vermeer\"                        -> \"요하네스 페르메이르\"\n",
"    \"Nijkerk\"                                 -> \"네이커르크\"\n",
"    \"Frank Rijkaard\"                          -> \"프랑크 레이카르트\"\n",
"    \"Willem Einthoven\"                        -> \"빌럼 에인트호번\"\n",
"    \"Dennis\"                                  -> \"데니스\"\n",
"    \"Hendrik Petrus Berlage\"                  -> \"헨드릭 페트뤼스 베를라허\"\n",
"    \"zaait\"                                   -> \"자이트\"\n",
"    \"Jan Pieterszoon Sweelinck\"               -> \"얀 피터르스존 스베일링크\"\n",
"    \"Mengelberg\"                              -> \"멩엘베르흐\"\n",
"    \"gulden\"                                  -> \"휠던\"\n",
"    \"Jansen\"                                  -> \"얀선\"\n",
"    \"Hoog-Keppel\"                             -> \"호흐케펄\"\n",
"    \"Europort\"                                -> \"외로포르트\"\n",
"    \"Alphen aan den Rijn\"                     -> \"알펀안덴레인\"\n",
"    \"typisch\"                                 -> \"티피스\"\n",
"    \"Delfzijl\"                                -> \"델프제일\"\n"]

theorem lines79_ok : Part false lang macros vars (str "test") lines79 (str "test") := by
  apply piece_of
  · dsimp only [lines79]; repeat (first | exact .nil | apply Spells.cons)
  · decide +kernel

def lines80 : List String := [
"    \"Bouts\"                                   -> \"바우츠\"\n",
"    \"Heike\"                                   -> \"헤이커\"\n",
"    \"’s-Hertogenbosch\"                        -> \"'스헤르토헨보스\"\n",
"    \"Heerhugowaard\"                           -> \"헤이르휘호바르트\"\n",
"    \"Leeuwenhoek\"                             -> \"레이우엔훅\"\n",
"    \"Noord-Brabant\"                           -> \"노르트브라반트\"\n",
"    \"Joachim Patinir\"                         -> \"요아힘 파티니르\"\n",
"    \"Hoek van Holland\"                        -> \"훅판홀란트\"\n",
"    \"Johan Huizinga\"                          -> \"요한 하위징아\"\n",
"    \"Famke Janssen\"                           -> \"팜커 얀선\"\n",
"    \"Leeuwarden\"                              -> \"레이우아르던\"\n",
"    \"Kampen\"                                  -> \"캄펀\"\n",
"    \"Den Burg\"                                -> \"덴뷔르흐\"\n",
"    \"Jan Hendrik Oort\"                        -> \"얀 헨드릭 오르트\"\n",
"    \"scrupel\"                                 -> \"스크뤼펄\"\n",
"    \"Vincent van Gogh\"                        -> \"빈센트 반고흐\"\n",
"    \"Weert\"                                   -> \"베이르트\"\n",
"    \"Oosterschelde\"                           -> \"오스테르스헬더\"\n",
"    \"tuig\"                                    -> \"타위흐\"\n",
"    \"Veltman\"                                 -> \"펠트만\"\n",
"    \"Eugene\"                                  -> \"외젠\"\n",
"    \"Sneek\"                                   -> \"스네이크\"\n",
"    \"Hillegom\"                                -> \"힐레홈\"\n",
"    \"Frank\"                                   -> \"프랑크\"\n",
"    \"Asten\"                                   -> \"아스턴\"\n",
"    \"Frans\"                                   -> \"프란스\"\n",
"    \"Arcadelt\"                                -> \"아르카덜트\"\n",
"    \"Sven Kramer\"                             -> \"스벤 크라머르\"\n",
"    \"Joost van den Vondel\"                    -> \"요스트 판덴폰덜\"\n",
"    \"Gerrit\"                                  -> \"헤릿\"\n",
"    \"Bolsward\"                                -> \"볼스바르트\"\n",
"    \"Hollum\"                                  -> \"홀륌\"\n",
"    \"ruw\"                                     -> \"뤼\"\n",
"    \"Oss\"                                     -> \"오스\"\n",
"    \"Bert van Marwijk\"                        -> \"베르트 판마르베이크\"\n",
"    \"Tjalling Koopmans\"                       -> \"티알링 코프만스\"\n",
"    \"West-Terschelling\"                       -> \"베스트테르스헬링\"\n",
"    \"Best\"                                    -> \"베스트\"\n",
"    \"Petrus Jacobus Kipp\"                     -> \"페트뤼스 야코뷔스 킵\"\n",
"    \"Halsteren\"                               -> \"할스테런\"\n",
"    \"Pieter Brueghel\"                         -> \"피터르 브뤼헐\"\n",
"    \"Gerrit Zalm\"                             -> \"헤릿 잘름\"\n",
"    \"IJmuiden\"                                -> \"에이마위던\"\n",
"    \"Waddinxveen\"                             -> \"바딩크스베인\"\n",
"    \"Meppel\"                                  -> \"메펄\"\n",
"    \"Buys\"                                    -> \"바위스\"\n",
"    \"Rotterdam\"                               -> \"로테르담\"\n",
"    \"Michiel de Ruyter\"                       -> \"미힐 더라위터르\"\n",
"    \"Joop den Uyl\"                            -> \"요프 덴아윌\"\n",
"    \"Meerssen\"                                -> \"메이르선\"\n",
"    \"Einthoven\"                               -> \"에인트호번\"\n",
"    \"Jan\"                                     -> \"얀\"\n",
"    \"Westerschelde\"                           -> \"베스테르스헬더\"\n",
"    \"Nijverdal\"                               -> \"네이베르달\"\n",
"    \"Stevin\"                                  -> \"스테빈\"\n",
"    \"Berkel\"                                  -> \"베르컬\"\n",
"    \"Dennis Bergkamp\"                         -> \"데니스 베르흐캄프\"\n",
"    \"Zeeman\"                                  -> \"제이만\"\n",
"    \"Purmerend\"                               -> \"퓌르메런트\"\n",
"    \"Mechelen\"                                -> \"메헬런\"\n"]

theorem lines80_ok : Part false lang macros vars (str "test") lines80 (str "test") := by
  apply piece_of
  · dsimp only [lines80]; repeat (first | exact .nil | apply Spells.cons)
  · decide +kernel

end Verif.Specs.Nld
