import Verif.Specs.LavHead

/-! specs/lav.hsl, part 2, generated by tools/gen_specs.py. -/

set_option Elab.async false

namespace Verif.Specs.Lav

open Hsl

def lines17 : List String := [
"    \"Liepāja\"                  -> \"리에파야\"\n",
"    \"Elza Rozenberga\"          -> \"엘자 로젠베르가\"\n",
"    \"Aleksandrs Čaks\"          -> \"알렉산드르스 착스\"\n",
"    \"Jelgava\"                  -> \"옐가바\"\n",
"    \"Kārlis Zariņš\"            -> \"카를리스 자린슈\"\n",
"    \"Jānis Čakste\"             -> \"야니스 착스테\"\n",
"    \"Romāns Vainšteins\"        -> \"로만스 바인슈테인스\"\n",
"    \"Alberts Kviesis\"          -> \"알베르츠 크비에시스\"\n",
"    \"Rīga\"                     -> \"리가\"\n",
"    \"Zigfrīds Anna Meierovics\" -> \"직프리츠 안나 메이에로비츠\"\n",
"    \"Mihails Barišņikovs\"      -> \"미하일스 바리슈니코우스\"\n",
"    \"Ernests Gulbis\"           -> \"에르네스츠 굴비스\"\n",
"    \"Jevgeņijs Millers\"        -> \"예우게니스 밀레르스\"\n",
"    \"Krišjānis Barons\"         -> \"크리샤니스 바론스\"\n",
"    \"Haralds Silovs\"           -> \"하랄츠 실로우스\"\n",
"    \"Koknese\"                  -> \"코크네세\"\n",
"    \"Valmiera\"                 -> \"발미에라\"\n",
"    \"Kārlis Mīlenbahs\"         -> \"카를리스 밀렌바흐스\"\n",
"    \"Andris Šķēle\"             -> \"안드리스 슈첼레\"\n",
"    \"Atis Kronvalds\"           -> \"아티스 크론발츠\"\n",
"    \"Gunārs Astra\"             -> \"구나르스 아스트라\"\n",
"    \"Gustavs Zemgals\"          -> \"구스타우스 젬갈스\"\n",
"    \"Māris Verpakovskis\"       -> \"마리스 베르파코우스키스\"\n",
"    \"Valdis Valters\"           -> \"발디스 발테르스\"\n",
"    \"Marians Pahars\"           -> \"마리안스 파하르스\"\n",
"    \"Zemgale\"                  -> \"젬갈레\"\n",
"    \"Gatis Jahovičs\"           -> \"가티스 야호비치\"\n",
"    \"Viktors Ščerbatihs\"       -> \"빅토르스 슈체르바티흐스\"\n",
"    \"Jāzeps Vītols\"            -> \"야젭스 비톨스\"\n",
"    \"Aleksandrs Laime\"         -> \"알렉산드르스 라이메\"\n"]

theorem lines17_ok : Part true lang macros vars (str "test") lines17 (str "test") := by
  apply piece_of
  · dsimp only [lines17]; repeat (first | exact .nil | apply Spells.cons)
  · decide +kernel

end Verif.Specs.Lav
