import Verif.Specs.CatHead

/-! specs/cat.hsl, part 2, generated by tools/gen_specs.py. -/

set_option Elab.async false

namespace Verif.Specs.Cat

open Hsl

def lines17 : List String := [
"test:\n",
"    \"Camp Nou\"                -> \"캄 노우\"\n",
"    \"Josep Pla\"               -> \"조제프 플라\"\n",
"    \"Pau Gasol\"               -> \"파우 가졸\"\n",
"    \"Lluís Companys\"          -> \"류이스 콤파니스\"\n",
"    \"Montserrat\"              -> \"몬세라트\"\n",
"    \"Empúries\"                -> \"엠푸리에스\"\n",
"    \"Jacint Verdaguer\"        -> \"자신 베르다게르\"\n",
"    \"Rosselló\"                -> \"로셀료\"\n",
"    \"Andorra\"                 -> \"안도라\"\n",
"    \"Salvador Espriu\"         -> \"살바도르 에스프리우\"\n",
"    \"Elx\"                     -> \"엘시\"\n",
"    \"Eivissa\"                 -> \"에이비사\"\n",
"    \"Ribagorça\"               -> \"리바고르사\"\n",
"    \"llengua\"                 -> \"롕과\"\n",
"    \"Albert Costa\"            -> \"알베르트 코스타\"\n",
"    \"Pallars\"                 -> \"팔랴르스\"\n",
"    \"Jordi Tarrés\"            -> \"조르디 타레스\"\n",
"    \"modernisme\"              -> \"모데르니즈메\"\n",
"    \"Espanyol\"                -> \"에스파뇰\"\n",
"    \"Cerdanya\"                -> \"세르다냐\"\n",
"    \"Cesc Fàbregas\"           -> \"세스크 파브레가스\"\n",
"    \"Arantxa\"                 -> \"아란차\"\n",
"    \"Carles Puyol\"            -> \"카를레스 푸욜\"\n",
"    \"Manresa\"                 -> \"만레자\"\n",
"    \"Pallars Jussà\"           -> \"팔랴르스 주사\"\n",
"    \"Girona\"                  -> \"지로나\"\n",
"    \"Ramon Llull\"             -> \"라몬 률\"\n",
"    \"Francesc Macià i Llussà\" -> \"프란세스크 마시아 이 류사\"\n",
"    \"Lleida\"                  -> \"례이다\"\n",
"    \"Barça\"                   -> \"바르사\"\n",
"    \"Montjuïc\"                -> \"몬주이크\"\n",
"    \"Palma\"                   -> \"팔마\"\n",
"    \"Joaquim Sorolla\"         -> \"조아킴 소롤랴\"\n",
"    \"Sagrada Família\"         -> \"사그라다 파밀리아\"\n",
"    \"Ausiàs March\"            -> \"아우지아스 마르크\"\n",
"    \"Pau Casals\"              -> \"파우 카잘스\"\n",
"    \"Antoni Gaudí\"            -> \"안토니 가우디\"\n",
"    \"Jaume Bartumeu\"          -> \"자우메 바르투메우\"\n",
"    \"Sergi Bruguera\"          -> \"세르지 브루게라\"\n",
"    \"Tarragona\"               -> \"타라고나\"\n",
"    \"Salvador Dalí\"           -> \"살바도르 달리\"\n",
"    \"Alacant\"                 -> \"알라칸\"\n",
"    \"Berga\"                   -> \"베르가\"\n",
"    \"Canigó\"                  -> \"카니고\"\n",
"    \"Josep Guardiola\"         -> \"조제프 과르디올라\"\n",
"    \"Josep Carner\"            -> \"조제프 카르네르\"\n",
"    \"Antoni Tàpies\"           -> \"안토니 타피에스\"\n",
"    \"Gerard Piqué\"            -> \"제라르트 피케\"\n",
"    \"Figueres\"                -> \"피게레스\"\n",
"    \"Barcelona\"               -> \"바르셀로나\"\n",
"    \"Jordi Savall\"            -> \"조르디 사발\"\n",
"    \"Conflent\"                -> \"콘플렌\"\n",
"    \"Urgell\"                  -> \"우르젤\"\n",
"    \"València\"                -> \"발렌시아\"\n",
"    \"Besalú\"                  -> \"베잘루\"\n",
"    \"Joanot Martorell\"        -> \"조아노트 마르토렐\"\n",
"    \"Santiago Calatrava\"      -> \"산티아고 칼라트라바\"\n",
"    \"Valentí Almirall\"        -> \"발렌티 알미랄\"\n",
"    \"Catalunya\"               -> \"카탈루냐\"\n",
"    \"Joan Maragall\"           -> \"조안 마라갈\"\n",
"    \"Xavi Hernández\"          -> \"샤비 에르난데스\"\n",
"    \"Joan Miró\"               -> \"조안 미로\"\n",
"    \"Eudald Pradell\"          -> \"에우달 프라델\"\n",
"    \"Renaixença\"              -> \"레나셴사\"\n",
"    \"Josep Tarradellas\"       -> \"조제프 타라델랴스\"\n",
"    \"Joan Capdevila\"          -> \"조안 캅데빌라\"\n",
"    \"Pallars Sobirà\"          -> \"팔랴르스 소비라\"\n",
"    \"estel·lar\"               -> \"에스텔라르\"\n",
"    \"Andorra la Vella\"        -> \"안도라 라 벨랴\"\n",
"    \"Àlex Corretja\"           -> \"알렉스 코레자\"\n",
"    \"Osona\"                   -> \"오조나\"\n",
"    \"Joan Manuel Serrat\"      -> \"조안 마누엘 세라트\"\n",
"    \"Montserrat Caballé\"      -> \"몬세라트 카발례\"\n",
"    \"Mercè Rodoreda\"          -> \"메르세 로도레다\"\n",
"\n"]

theorem lines17_ok : Part true lang macros vars (str "transcribe") lines17 (str "test") := by
  apply piece_of
  · dsimp only [lines17]; repeat (first | exact .nil | apply Spells.cons)
  · decide +kernel

end Verif.Specs.Cat
