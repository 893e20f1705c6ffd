import Verif.Specs.PorHead

/-! specs/por.hsl, part 2, generated by tools/gen_specs.py. -/

set_option Elab.async false

namespace Verif.Specs.Por

open Hsl

def lines17 : List String := [
"transcribe:\n",
"    \"b\"    -> \"ㅂ\"\n",
"    \"d\"    -> \"ㄷ\"\n",
"    \"f\"    -> \"ㅍ\"\n",
"    \"g\"    -> \"ㄱ\"\n",
"    \"j\"    -> \"ㅈ\"\n",
"    \"j\"    -> \"\"\n",
"    \"k,\"   -> \"-ㄱ\"\n",
"    \"k\"    -> \"ㅋ\"\n",
"    \"^l\"   -> \"ㄹ\"\n",
"    \"{,}l\" -> \"ㄹ\"\n"]

theorem lines17_ok : Part true lang macros vars (str "rewrite") lines17 (str "transcribe") := by
  apply piece_of
  · dsimp only [lines17]; repeat (first | exact .nil | apply Spells.cons)
  · decide +kernel

def lines18 : List String := [
"    \"l,\"   -> \"-ㄹ\"\n",
"    \"l\"    -> \"-ㄹㄹ\"\n",
"    \"m,\"   -> \"-ㅁ\"\n",
"    \"m\"    -> \"ㅁ\"\n",
"    \"n,\"   -> \"-ㄴ\"\n",
"    \"n\"    -> \"ㄴ\"\n",
"    \"~\"    -> \"-ㅇ\"\n",
"    \"p,\"   -> \"-ㅂ\"\n",
"    \"p\"    -> \"ㅍ\"\n",
"    \"r\"    -> \"ㄹ\"\n"]

theorem lines18_ok : Part true lang macros vars (str "transcribe") lines18 (str "transcribe") := by
  apply piece_of
  · dsimp only [lines18]; repeat (first | exact .nil | apply Spells.cons)
  · decide +kernel

def lines19 : List String := [
"    \"R\"    -> \"ㅎ\"\n",
"    \"S\"    -> \"ㅅ\"\n",
"    \"t,\"   -> \"-ㅅ\"\n",
"    \"t\"    -> \"ㅌ\"\n",
"    \"v\"    -> \"ㅂ\"\n",
"    \"z\"    -> \"ㅈ\"\n",
"    \"Ya\"   -> \"ㅑ\"\n",
"    \"Ye\"   -> \"ㅖ\"\n",
"    \"Yi\"   -> \"ㅣ\"\n",
"    \"Yo\"   -> \"ㅛ\"\n"]

theorem lines19_ok : Part true lang macros vars (str "transcribe") lines19 (str "transcribe") := by
  apply piece_of
  · dsimp only [lines19]; repeat (first | exact .nil | apply Spells.cons)
  · decide +kernel

def lines20 : List String := [
"    \"Yu\"   -> \"ㅠ\"\n",
"    \"YQ\"   -> \"ㅡ\"\n",
"    \"Wa\"   -> \"ㅘ\"\n",
"    \"We\"   -> \"ㅞ\"\n",
"    \"Wi\"   -> \"ㅟ\"\n",
"    \"Wo\"   -> \"ㅝ\"\n",
"    \"Wu\"   -> \"ㅜ\"\n",
"    \"WQ\"   -> \"ㅔ\"\n",
"    \"a\"    -> \"ㅏ\"\n",
"    \"e\"    -> \"ㅔ\"\n"]

theorem lines20_ok : Part true lang macros vars (str "transcribe") lines20 (str "transcribe") := by
  apply piece_of
  · dsimp only [lines20]; repeat (first | exact .nil | apply Spells.cons)
  · decide +kernel

def lines21 : List String := [
"    \"i\"    -> \"ㅣ\"\n",
"    \"o\"    -> \"ㅗ\"\n",
"    \"u\"    -> \"ㅜ\"\n",
"    \"Q\"    -> \"ㅡ\"\n",
"    \"h\"    -> \"\"\n",
"\n"]

theorem lines21_ok : Part true lang macros vars (str "transcribe") lines21 (str "transcribe") := by
  apply piece_of
  · dsimp only [lines21]; repeat (first | exact .nil | apply Spells.cons)
  · decide +kernel

def lines22 : List String := [
"test:\n",
"    \"Montes\"     -> \"몬트스\"\n",
"    \"Angelo\"     -> \"안젤루\"\n",
"    \"Afonso\"     -> \"아폰수\"\n",
"    \"Saramago\"   -> \"사라마구\"\n",
"    \"Nascimento\" -> \"나시멘투\"\n",
"    \"Azul\"       -> \"아줄\"\n",
"    \"Santarem\"   -> \"산타렝\"\n",
"    \"Garrett\"    -> \"가헤트\"\n",
"    \"Sul\"        -> \"술\"\n",
"    \"Branco\"     -> \"브랑쿠\"\n",
"    \"Teixeira\"   -> \"테이셰이라\"\n",
"    \"excelente\"  -> \"이셀렌트\"\n",
"    \"Melo\"       -> \"멜루\"\n",
"    \"lixo\"       -> \"리슈\"\n",
"    \"Passos\"     -> \"파수스\"\n",
"    \"cresça\"     -> \"크레사\"\n",
"    \"Conquista\"  -> \"콩키스타\"\n",
"    \"Gil\"        -> \"질\"\n",
"    \"Pires\"      -> \"피르스\"\n",
"    \"Barroso\"    -> \"바호주\"\n",
"    \"Diamantina\" -> \"디아만티나\"\n",
"    \"Francisco\"  -> \"프란시스쿠\"\n",
"    \"Mattoso\"    -> \"마토주\"\n",
"    \"Bandeira\"   -> \"반데이라\"\n",
"    \"Ribeiro\"    -> \"히베이루\"\n",
"    \"Soares\"     -> \"소아르스\"\n",
"    \"Chaves\"     -> \"샤베스\"\n",
"    \"Lins\"       -> \"링스\"\n",
"    \"Chifre\"     -> \"시프르\"\n",
"    \"Peniche\"    -> \"페니시\"\n",
"    \"Angola\"     -> \"앙골라\"\n",
"    \"Campos\"     -> \"캄푸스\"\n",
"    \"Lopes\"      -> \"로페스\"\n",
"    \"Moniz\"      -> \"모니스\"\n",
"    \"Caracol\"    -> \"카라콜\"\n",
"    \"Vincente\"   -> \"빈센트\"\n",
"    \"Egas\"       -> \"에가스\"\n",
"    \"Iguaçú\"     -> \"이구아수\"\n",
"    \"Costa\"      -> \"코스타\"\n",
"    \"Rondon\"     -> \"혼동\"\n",
"    \"Montemayor\" -> \"몬테마요르\"\n",
"    \"Amado\"      -> \"아마두\"\n",
"    \"Toress\"     -> \"토레스\"\n",
"    \"Alegrete\"   -> \"알레그레트\"\n",
"    \"de\"         -> \"드\"\n",
"    \"Antonio\"    -> \"안토니우\"\n",
"    \"Araquari\"   -> \"아라쿠아리\"\n",
"    \"exemplo\"    -> \"이젬플루\"\n",
"    \"Salazar\"    -> \"살라자르\"\n",
"    \"Manuel\"     -> \"마누엘\"\n",
"    \"piscina\"    -> \"피시나\"\n",
"    \"Camocim\"    -> \"카모싱\"\n",
"    \"Junqueiro\"  -> \"중케이루\"\n",
"    \"Gervasio\"   -> \"제르바지우\"\n",
"    \"Henrique\"   -> \"엔히크\"\n",
"    \"Carlos\"     -> \"카를루스\"\n",
"    \"Aquilino\"   -> \"아킬리누\"\n",
"    \"exame\"      -> \"이자므\"\n",
"    \"Angoche\"    -> \"앙고시\"\n",
"    \"Guerra\"     -> \"게하\"\n",
"    \"Estremoz\"   -> \"이스트레모스\"\n",
"    \"Amalia\"     -> \"아말리아\"\n",
"    \"Gilberto\"   -> \"질베르투\"\n",
"    \"Gomes\"      -> \"고메스\"\n",
"    \"Lagos\"      -> \"라구스\"\n",
"    \"Nobre\"      -> \"노브르\"\n",
"    \"Neves\"      -> \"네베스\"\n",
"    \"Rubens\"     -> \"후벵스\"\n",
"    \"Cabral\"     -> \"카브랄\"\n"]

theorem lines22_ok : Part true lang macros vars (str "transcribe") lines22 (str "test") := by
  apply piece_of
  · dsimp only [lines22]; repeat (first | exact .nil | apply Spells.cons)
  · decide +kernel

end Verif.Specs.Por
