import Verif.Specs.SweHead

/-! specs/swe.hsl, part 2, generated by tools/gen_specs.py. -/

set_option Elab.async false

namespace Verif.Specs.Swe

open Hsl

def lines17 : List String := [
"    \",n,\"            -> \"n,\"\n",
"    \",N,\"            -> \"N,\"\n",
"    \"l{m;|n;}\"       -> \"l,\"\n",
"    \";\"              -> \"\"\n",
"\n"]

theorem lines17_ok : Part true lang macros vars (str "rewrite") lines17 (str "rewrite") := by
  apply piece_of
  · dsimp only [lines17]; repeat (first | exact .nil | apply Spells.cons)
  · decide +kernel

def lines18 : List String := [
"transcribe:\n",
"    \"b\"    -> \"ㅂ\"\n",
"    \"d\"    -> \"ㄷ\"\n",
"    \"f\"    -> \"ㅍ\"\n",
"    \"g\"    -> \"ㄱ\"\n",
"    \"h\"    -> \"ㅎ\"\n",
"    \"k,\"   -> \"-ㄱ\"\n",
"    \"k\"    -> \"ㅋ\"\n",
"    \"^l\"   -> \"ㄹ\"\n",
"    \"{,}l\" -> \"ㄹ\"\n",
"    \"l,\"   -> \"-ㄹ\"\n"]

theorem lines18_ok : Part true lang macros vars (str "rewrite") lines18 (str "transcribe") := by
  apply piece_of
  · dsimp only [lines18]; repeat (first | exact .nil | apply Spells.cons)
  · decide +kernel

def lines19 : List String := [
"    \"l\"    -> \"-ㄹㄹ\"\n",
"    \"m,\"   -> \"-ㅁ\"\n",
"    \"m\"    -> \"ㅁ\"\n",
"    \"n,\"   -> \"-ㄴ\"\n",
"    \"n\"    -> \"ㄴ\"\n",
"    \"N\"    -> \"-ㅇ\"\n",
"    \"p,\"   -> \"-ㅂ\"\n",
"    \"p\"    -> \"ㅍ\"\n",
"    \"r\"    -> \"ㄹ\"\n",
"    \"s\"    -> \"ㅅ\"\n"]

theorem lines19_ok : Part true lang macros vars (str "transcribe") lines19 (str "transcribe") := by
  apply piece_of
  · dsimp only [lines19]; repeat (first | exact .nil | apply Spells.cons)
  · decide +kernel

def lines20 : List String := [
"    \"t,\"   -> \"-ㅅ\"\n",
"    \"t\"    -> \"ㅌ\"\n",
"    \"v\"    -> \"ㅂ\"\n",
"    \"Ja\"   -> \"ㅑ\"\n",
"    \"Je\"   -> \"ㅖ\"\n",
"    \"Ji\"   -> \"ㅣ\"\n",
"    \"Jo\"   -> \"ㅛ\"\n",
"    \"Ju\"   -> \"ㅠ\"\n",
"    \"Jy\"   -> \"ㅟ\"\n",
"    \"a\"    -> \"ㅏ\"\n"]

theorem lines20_ok : Part true lang macros vars (str "transcribe") lines20 (str "transcribe") := by
  apply piece_of
  · dsimp only [lines20]; repeat (first | exact .nil | apply Spells.cons)
  · decide +kernel

def lines21 : List String := [
"    \"e\"    -> \"ㅔ\"\n",
"    \"i\"    -> \"ㅣ\"\n",
"    \"o\"    -> \"ㅗ\"\n",
"    \"u\"    -> \"ㅜ\"\n",
"    \"y\"    -> \"ㅟ\"\n",
"    \"O\"    -> \"ㅚ\"\n",
"\n"]

theorem lines21_ok : Part true lang macros vars (str "transcribe") lines21 (str "transcribe") := by
  apply piece_of
  · dsimp only [lines21]; repeat (first | exact .nil | apply Spells.cons)
  · decide +kernel

def lines22 : List String := [
"test:\n",
"    \"Erlander\"        -> \"엘란데르\"\n",
"    \"Kiruna\"          -> \"키루나\"\n",
"    \"Vänern\"          -> \"베네른\"\n",
"    \"tjeck\"           -> \"셰크\"\n",
"    \"detalj\"          -> \"데탈리\"\n",
"    \"Småland\"         -> \"스몰란드\"\n",
"    \"Carlsson\"        -> \"칼손\"\n",
"    \"bock\"            -> \"보크\"\n",
"    \"Sjöberg\"         -> \"셰베리\"\n",
"    \"börja\"           -> \"뵈리아\"\n",
"    \"och\"             -> \"오크\"\n",
"    \"Geijer\"          -> \"예이예르\"\n",
"    \"Ludvig\"          -> \"루드비그\"\n",
"    \"Greta\"           -> \"그레타\"\n",
"    \"röd\"             -> \"뢰드\"\n",
"    \"helgon\"          -> \"헬곤\"\n",
"    \"sjukhem\"         -> \"슈크헴\"\n",
"    \"Wilander\"        -> \"빌란데르\"\n",
"    \"Lindqvist\"       -> \"린드크비스트\"\n",
"    \"Jacob\"           -> \"야코브\"\n",
"    \"mjuk\"            -> \"미우크\"\n",
"    \"skydda\"          -> \"쉬다\"\n",
"    \"Luther\"          -> \"루테르\"\n",
"    \"dag\"             -> \"다그\"\n",
"    \"lång\"            -> \"롱\"\n",
"    \"Linköping\"       -> \"린셰핑\"\n",
"    \"tjugo\"           -> \"슈고\"\n",
"    \"tjäna\"           -> \"셰나\"\n",
"    \"lektion\"         -> \"렉숀\"\n",
"    \"Eslöv\"           -> \"에슬뢰브\"\n",
"    \"Sundsvall\"       -> \"순스발\"\n",
"    \"Östersund\"       -> \"외스테르순드\"\n",
"    \"bank\"            -> \"방크\"\n",
"    \"Schack\"          -> \"샤크\"\n",
"    \"Alvesta\"         -> \"알베스타\"\n",
"    \"namn\"            -> \"남\"\n",
"    \"Tjåkkå\"          -> \"쇼코\"\n",
"    \"Celsius\"         -> \"셀시우스\"\n",
"    \"Lorenzo\"         -> \"로렌소\"\n",
"    \"bal\"             -> \"발\"\n",
"    \"Karlgren\"        -> \"칼그렌\"\n",
"    \"Lysekil\"         -> \"뤼세실\"\n",
"    \"Björk\"           -> \"비에르크\"\n",
"    \"Björn\"           -> \"비에른\"\n",
"    \"Kattegatt\"       -> \"카테가트\"\n",
"    \"Schein\"          -> \"셰인\"\n",
"    \"adjö\"            -> \"아예\"\n",
"    \"Boden\"           -> \"보덴\"\n",
"    \"Umeå\"            -> \"우메오\"\n",
"    \"Ericson\"         -> \"에릭손\"\n",
"    \"folk\"            -> \"폴크\"\n",
"    \"Gustav\"          -> \"구스타브\"\n",
"    \"Nynäshamn\"       -> \"뉘네스함\"\n",
"    \"Skeppsholmen\"    -> \"솁스홀멘\"\n",
"    \"Swedenborg\"      -> \"스베덴보리\"\n",
"    \"skål\"            -> \"스콜\"\n",
"    \"Trelleborg\"      -> \"트렐레보리\"\n",
"    \"Malmö\"           -> \"말뫼\"\n",
"    \"Sankt\"           -> \"상트\"\n",
"    \"Gislaved\"        -> \"이슬라베드\"\n",
"    \"Hjalmar\"         -> \"얄마르\"\n",
"    \"hummer\"          -> \"훔메르\"\n",
"    \"Svealand\"        -> \"스베알란드\"\n",
"    \"Kerstin\"         -> \"셰르스틴\"\n",
"    \"punkt\"           -> \"풍트\"\n",
"    \"fjäril\"          -> \"피에릴\"\n",
"    \"högst\"           -> \"획스트\"\n",
"    \"Jönköping\"       -> \"옌셰핑\"\n",
"    \"Jansson\"         -> \"얀손\"\n",
"    \"kamp\"            -> \"캄프\"\n",
"    \"samtal\"          -> \"삼탈\"\n",
"    \"kniv\"            -> \"크니브\"\n",
"    \"Dahl\"            -> \"달\"\n",
"    \"Visby\"           -> \"비스뷔\"\n",
"    \"Karl\"            -> \"칼\"\n",
"    \"Agnes\"           -> \"앙네스\"\n",
"    \"Piteå\"           -> \"피테오\"\n",
"    \"Sankta Ragnhild\" -> \"상타 랑힐드\"\n",
"    \"Göteborg\"        -> \"예테보리\"\n",
"    \"Skövde\"          -> \"셰브데\"\n",
"    \"Göta\"            -> \"예타\"\n",
"    \"Gjerstad\"        -> \"예르스타드\"\n",
"    \"kung\"            -> \"쿵\"\n",
"    \"Borg\"            -> \"보리\"\n",
"    \"Kalix\"           -> \"칼릭스\"\n",
"    \"mjöl\"            -> \"미엘\"\n",
"    \"Fredrik\"         -> \"프레드리크\"\n",
"    \"Storvik\"         -> \"스토르비크\"\n",
"    \"Södertälje\"      -> \"쇠데르텔리에\"\n",
"    \"Halmstad\"        -> \"할름스타드\"\n",
"    \"Magnus\"          -> \"망누스\"\n",
"    \"Luleå\"           -> \"룰레오\"\n",
"    \"Kjell\"           -> \"셸\"\n",
"    \"Axel\"            -> \"악셀\"\n",
"    \"Falun\"           -> \"팔룬\"\n",
"    \"Hjälmaren\"       -> \"옐마렌\"\n",
"    \"älg\"             -> \"엘리\"\n",
"    \"Örebro\"          -> \"외레브로\"\n",
"    \"Gjörwell\"        -> \"예르벨\"\n",
"    \"dricka\"          -> \"드리카\"\n",
"    \"Uppsala\"         -> \"웁살라\"\n",
"    \"revansch\"        -> \"레반슈\"\n",
"    \"luft\"            -> \"루프트\"\n",
"    \"station\"         -> \"스타숀\"\n",
"    \"Bromma\"          -> \"브롬마\"\n",
"    \"Nässjö\"          -> \"네셰\"\n"]

theorem lines22_ok : Part true lang macros vars (str "transcribe") lines22 (str "test") := by
  apply piece_of
  · dsimp only [lines22]; repeat (first | exact .nil | apply Spells.cons)
  · decide +kernel

def lines23 : List String := [
"    \"Strindberg\"      -> \"스트린드베리\"\n",
"    \"Kock\"            -> \"코크\"\n",
"    \"vacker\"          -> \"바케르\"\n",
"    \"oktober\"         -> \"옥토베르\"\n",
"    \"Oxenstjerna\"     -> \"옥센셰르나\"\n",
"    \"Alexander\"       -> \"알렉산데르\"\n",
"    \"Johansson\"       -> \"요한손\"\n",
"    \"Sverige\"         -> \"스베리예\"\n",
"    \"knappt\"          -> \"크납트\"\n",
"    \"Dannemora\"       -> \"단네모라\"\n",
"    \"snabbt\"          -> \"스납트\"\n",
"    \"Karlshamn\"       -> \"칼스함\"\n",
"    \"Stjärneborg\"     -> \"셰르네보리\"\n",
"    \"land\"            -> \"란드\"\n",
"    \"Kjula\"           -> \"슐라\"\n",
"    \"Stockholm\"       -> \"스톡홀름\"\n",
"    \"skörd\"           -> \"셰르드\"\n",
"    \"sex\"             -> \"섹스\"\n",
"    \"Hjort\"           -> \"요르트\"\n",
"    \"Enköping\"        -> \"엔셰핑\"\n",
"    \"Hälsingborg\"     -> \"헬싱보리\"\n",
"    \"Trollhättan\"     -> \"트롤헤탄\"\n",
"    \"Skellefteå\"      -> \"셸레프테오\"\n",
"    \"dans\"            -> \"단스\"\n",
"    \"kedja\"           -> \"셰디아\"\n",
"    \"Lund\"            -> \"룬드\"\n",
"    \"Wasa\"            -> \"바사\"\n",
"    \"skuldra\"         -> \"스쿨드라\"\n",
"    \"Botkyrka\"        -> \"봇쉬르카\"\n",
"    \"Jarl\"            -> \"얄\"\n",
"    \"Björling\"        -> \"비엘링\"\n",
"    \"Mälaren\"         -> \"멜라렌\"\n",
"    \"sommar\"          -> \"솜마르\"\n",
"    \"tal\"             -> \"탈\"\n",
"    \"Djurgården\"      -> \"유르고르덴\"\n",
"    \"Kungsholm\"       -> \"쿵스홀름\"\n",
"    \"Norrköping\"      -> \"노르셰핑\"\n",
"    \"Hammarskjöld\"    -> \"함마르셸드\"\n",
"    \"zon\"             -> \"손\"\n",
"    \"Skoglund\"        -> \"스코글룬드\"\n",
"    \"Ragnar\"          -> \"랑나르\"\n",
"    \"anka\"            -> \"앙카\"\n",
"    \"Idre\"            -> \"이드레\"\n",
"    \"Zachris\"         -> \"사크리스\"\n",
"    \"Borlänge\"        -> \"볼렝에\"\n",
"    \"Ljusnan\"         -> \"유스난\"\n",
"    \"charm\"           -> \"샤름\"\n",
"    \"Grönberg\"        -> \"그뢴베리\"\n",
"    \"Malmqvist\"       -> \"말름크비스트\"\n",
"    \"Åmål\"            -> \"오몰\"\n",
"    \"Västerås\"        -> \"베스테로스\"\n",
"    \"Thunberg\"        -> \"툰베리\"\n",
"    \"campa\"           -> \"캄파\"\n",
"    \"Skjöldebrand\"    -> \"셸데브란드\"\n",
"    \"tala\"            -> \"탈라\"\n",
"    \"båt\"             -> \"보트\"\n",
"    \"hyra\"            -> \"휘라\"\n",
"    \"Ystad\"           -> \"위스타드\"\n",
"\n"]

theorem lines23_ok : Part true lang macros vars (str "test") lines23 (str "test") := by
  apply piece_of
  · dsimp only [lines23]; repeat (first | exact .nil | apply Spells.cons)
  · decide +kernel

end Verif.Specs.Swe
