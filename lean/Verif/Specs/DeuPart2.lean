import Verif.Specs.DeuHead

/-! specs/deu.hsl, part 2, generated by tools/gen_specs.py. -/

set_option Elab.async false

namespace Verif.Specs.Deu

open Hsl

def lines17 : List String := [
"    \"n\"             -> \"-ㄴ\"\n",
"    \"N\"             -> \"-ㅇ\"\n",
"    \"h\"             -> \"ㅎ\"\n",
"    \"{ai|oi|au}p\"   -> \"ㅍ\"\n",
"    \"{@}p{s|S|t}\"   -> \"-ㅂ\"\n",
"    \"p\"             -> \"ㅍ\"\n",
"    \"r\"             -> \"ㄹ\"\n",
"    \"s\"             -> \"ㅅ\"\n",
"    \"S\"             -> \"ㅅ\"\n",
"    \"J\"             -> \"ㅈ\"\n"]

theorem lines17_ok : Part true lang macros vars (str "transcribe") lines17 (str "transcribe") := by
  apply piece_of
  · dsimp only [lines17]; repeat (first | exact .nil | apply Spells.cons)
  · decide +kernel

def lines18 : List String := [
"    \"t\"             -> \"ㅌ\"\n",
"    \"v\"             -> \"ㅍ\"\n",
"    \"w\"             -> \"ㅂ\"\n",
"    \"z\"             -> \"ㅊ\"\n",
"    \"ja\"            -> \"ㅑ\"\n",
"    \"je\"            -> \"ㅖ\"\n",
"    \"ji\"            -> \"ㅣ\"\n",
"    \"jo\"            -> \"ㅛ\"\n",
"    \"ju\"            -> \"ㅠ\"\n",
"    \"jy\"            -> \"ㅟ\"\n"]

theorem lines18_ok : Part true lang macros vars (str "transcribe") lines18 (str "transcribe") := by
  apply piece_of
  · dsimp only [lines18]; repeat (first | exact .nil | apply Spells.cons)
  · decide +kernel

def lines19 : List String := [
"    \"jO\"            -> \"ㅚ\"\n",
"    \"jA\"            -> \"ㅖ\"\n",
"    \"jU\"            -> \"ㅕ\"\n",
"    \"U\"             -> \"ㅓ\"\n",
"    \"a\"             -> \"ㅏ\"\n",
"    \"e\"             -> \"ㅔ\"\n",
"    \"E\"             -> \"ㅔ\"\n",
"    \"i\"             -> \"ㅣ\"\n",
"    \"o\"             -> \"ㅗ\"\n",
"    \"u\"             -> \"ㅜ\"\n"]

theorem lines19_ok : Part true lang macros vars (str "transcribe") lines19 (str "transcribe") := by
  apply piece_of
  · dsimp only [lines19]; repeat (first | exact .nil | apply Spells.cons)
  · decide +kernel

def lines20 : List String := [
"    \"A\"             -> \"ㅔ\"\n",
"    \"O\"             -> \"ㅚ\"\n",
"    \"y\"             -> \"ㅟ\"\n",
"    \"j\"             -> \"ㅣ\"\n",
"\n"]

theorem lines20_ok : Part true lang macros vars (str "transcribe") lines20 (str "transcribe") := by
  apply piece_of
  · dsimp only [lines20]; repeat (first | exact .nil | apply Spells.cons)
  · decide +kernel

def lines21 : List String := [
"test:\n",
"    \"Königen\"     -> \"쾨니겐\"\n",
"    \"einer\"       -> \"아이너\"\n",
"    \"Habsburg\"    -> \"합스부르크\"\n",
"    \"Fräulein\"    -> \"프로일라인\"\n",
"    \"Daniel\"      -> \"다니엘\"\n",
"    \"einen\"       -> \"아이넨\"\n",
"    \"für\"         -> \"퓌어\"\n",
"    \"Vater\"       -> \"파터\"\n",
"    \"Freiherr\"    -> \"프라이헤어\"\n",
"    \"Europa\"      -> \"오이로파\"\n",
"    \"Schiller\"    -> \"실러\"\n",
"    \"Tübingen\"    -> \"튀빙겐\"\n",
"    \"Hormon\"      -> \"호르몬\"\n",
"    \"Niclas\"      -> \"니클라스\"\n",
"    \"Helmut\"      -> \"헬무트\"\n",
"    \"Hamburg\"     -> \"함부르크\"\n",
"    \"Herr\"        -> \"헤어\"\n",
"    \"Bayern\"      -> \"바이에른\"\n",
"    \"Hermes\"      -> \"헤르메스\"\n",
"    \"Alexander\"   -> \"알렉산더\"\n",
"    \"Henrietta\"   -> \"헨리에타\"\n",
"    \"Buch\"        -> \"부흐\"\n",
"    \"Christine\"   -> \"크리스티네\"\n",
"    \"schön\"       -> \"쇤\"\n",
"    \"Schule\"      -> \"슐레\"\n",
"    \"Spengler\"    -> \"슈펭글러\"\n",
"    \"Reval\"       -> \"레발\"\n",
"    \"Schüler\"     -> \"쉴러\"\n",
"    \"Stadt\"       -> \"슈타트\"\n",
"    \"Rostock\"     -> \"로스토크\"\n",
"    \"schon\"       -> \"숀\"\n",
"    \"Fischer\"     -> \"피셔\"\n",
"    \"läuten\"      -> \"로이텐\"\n",
"    \"der\"         -> \"데어\"\n",
"    \"Herbst\"      -> \"헤르프스트\"\n",
"    \"Tür\"         -> \"튀어\"\n",
"    \"Berggarten\"  -> \"베르크가르텐\"\n",
"    \"Matthäus\"    -> \"마테우스\"\n",
"    \"Guggenheim\"  -> \"구겐하임\"\n",
"    \"Ohr\"         -> \"오어\"\n",
"    \"ein\"         -> \"아인\"\n",
"    \"Heidegger\"   -> \"하이데거\"\n",
"    \"Kellner\"     -> \"켈너\"\n",
"    \"Richard\"     -> \"리하르트\"\n",
"    \"Beelitz\"     -> \"벨리츠\"\n",
"    \"Frank\"       -> \"프랑크\"\n",
"    \"Wilhelm\"     -> \"빌헬름\"\n",
"    \"Grotesk\"     -> \"그로테스크\"\n",
"    \"Heidelberg\"  -> \"하이델베르크\"\n",
"    \"Karlsruhe\"   -> \"카를스루에\"\n",
"    \"ich\"         -> \"이히\"\n",
"    \"Schelle\"     -> \"셸레\"\n",
"    \"Freundin\"    -> \"프로인딘\"\n",
"    \"Augsburg\"    -> \"아우크스부르크\"\n",
"    \"Samuel\"      -> \"자무엘\"\n",
"    \"norddeutsch\" -> \"노르트도이치\"\n",
"    \"Feuer\"       -> \"포이어\"\n",
"    \"Amadeus\"     -> \"아마데우스\"\n",
"    \"Meyer\"       -> \"마이어\"\n",
"    \"Michael\"     -> \"미하엘\"\n",
"    \"Steffen\"     -> \"슈테펜\"\n",
"    \"Köln\"        -> \"쾰른\"\n",
"    \"Schatz\"      -> \"샤츠\"\n",
"    \"Emmy\"        -> \"에미\"\n",
"    \"Kupfer\"      -> \"쿠퍼\"\n",
"    \"Sachsen\"     -> \"작센\"\n",
"    \"Mischling\"   -> \"미슐링\"\n",
"    \"Mensch\"      -> \"멘슈\"\n",
"    \"bist\"        -> \"비스트\"\n",
"    \"ist\"         -> \"이스트\"\n",
"    \"Rasur\"       -> \"라주어\"\n",
"    \"Max\"         -> \"막스\"\n",
"    \"Fuggerei\"    -> \"푸게라이\"\n",
"    \"Hefeweizen\"  -> \"헤페바이첸\"\n",
"    \"Friedrich Wilhelm Nietzsche\" -> \"프리드리히 빌헬름 니체\"\n"]

theorem lines21_ok : Part true lang macros vars (str "transcribe") lines21 (str "test") := by
  apply piece_of
  · dsimp only [lines21]; repeat (first | exact .nil | apply Spells.cons)
  · decide +kernel

end Verif.Specs.Deu
