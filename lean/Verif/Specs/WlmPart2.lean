import Verif.Specs.WlmHead

/-! specs/wlm.hsl, part 2, generated by tools/gen_specs.py. -/

set_option Elab.async false

namespace Verif.Specs.Wlm

open Hsl

def lines17 : List String := [
"    \"j\"    -> \"ㅈ\"\n",
"    \"^l\"   -> \"ㄹ\"\n",
"    \"{,}l\" -> \"ㄹ\"\n",
"    \"l,\"   -> \"-ㄹ\"\n",
"    \"l\"    -> \"-ㄹㄹ\"\n",
"    \"m,\"   -> \"-ㅁ\"\n",
"    \"m\"    -> \"ㅁ\"\n",
"    \"n,\"   -> \"-ㄴ\"\n",
"    \"n\"    -> \"ㄴ\"\n",
"    \"N\"    -> \"-ㅇ\"\n"]

theorem lines17_ok : Part false lang macros vars (str "transcribe") lines17 (str "transcribe") := by
  apply piece_of
  · dsimp only [lines17]; repeat (first | exact .nil | apply Spells.cons)
  · decide +kernel

def lines18 : List String := [
"    \"p,\"   -> \"-ㅂ\"\n",
"    \"p\"    -> \"ㅍ\"\n",
"    \"r\"    -> \"ㄹ\"\n",
"    \"s\"    -> \"ㅅ\"\n",
"    \"t,\"   -> \"-ㅅ\"\n",
"    \"t\"    -> \"ㅌ\"\n",
"    \"T\"    -> \"ㅅ\"\n",
"    \"Ja\"   -> \"ㅑ\"\n",
"    \"Je\"   -> \"ㅖ\"\n",
"    \"Ji\"   -> \"ㅣ\"\n"]

theorem lines18_ok : Part false lang macros vars (str "transcribe") lines18 (str "transcribe") := by
  apply piece_of
  · dsimp only [lines18]; repeat (first | exact .nil | apply Spells.cons)
  · decide +kernel

def lines19 : List String := [
"    \"Jo\"   -> \"ㅛ\"\n",
"    \"Ju\"   -> \"ㅠ\"\n",
"    \"JU\"   -> \"ㅠ\"\n",
"    \"JQ\"   -> \"ㅕ\"\n",
"    \"Wa\"   -> \"ㅘ\"\n",
"    \"We\"   -> \"ㅞ\"\n",
"    \"Wi\"   -> \"ㅟ\"\n",
"    \"Wo\"   -> \"ㅝ\"\n",
"    \"Wu\"   -> \"ㅟ\"\n",
"    \"WU\"   -> \"ㅜ\"\n"]

theorem lines19_ok : Part false lang macros vars (str "transcribe") lines19 (str "transcribe") := by
  apply piece_of
  · dsimp only [lines19]; repeat (first | exact .nil | apply Spells.cons)
  · decide +kernel

def lines20 : List String := [
"    \"WQ\"   -> \"ㅝ\"\n",
"    \"a\"    -> \"ㅏ\"\n",
"    \"e\"    -> \"ㅔ\"\n",
"    \"i\"    -> \"ㅣ\"\n",
"    \"o\"    -> \"ㅗ\"\n",
"    \"u\"    -> \"ㅟ\"\n",
"    \"U\"    -> \"ㅜ\"\n",
"    \"Q\"    -> \"ㅓ\"\n",
"    \"Y\"    -> \"ㅡ\"\n",
"\n"]

theorem lines20_ok : Part false lang macros vars (str "transcribe") lines20 (str "transcribe") := by
  apply piece_of
  · dsimp only [lines20]; repeat (first | exact .nil | apply Spells.cons)
  · decide +kernel

def lines21 : List String := [
"test:\n",
"    \"Olwen\"                -> \"올웬\"\n",
"    \"Cad Godeu\"            -> \"카드 고데이\"\n",
"    \"Myrddin\"              -> \"머르딘\"\n",
"    \"Llywarch\"             -> \"흘러와르흐\"\n",
"    \"Pryderi\"              -> \"프러데리\"\n",
"    \"Arianrhod\"            -> \"아리안흐로드\"\n",
"    \"Mabinogion\"           -> \"마비노기온\"\n",
"    \"Gwenhwyfar\"           -> \"궨후이바르\"\n",
"    \"Peredur\"              -> \"페레뒤르\"\n",
"    \"Gofannon\"             -> \"고바논\"\n",
"    \"Lleu Llaw Gyffes\"     -> \"흘레이 흘라우 거페스\"\n",
"    \"Gwawl\"                -> \"과울\"\n",
"    \"Gwynedd\"              -> \"귀네드\"\n",
"    \"tynged\"               -> \"텅에드\"\n",
"    \"Culhwch ac Olwen\"     -> \"퀼후흐 악 올웬\"\n",
"    \"Culhwch\"              -> \"퀼후흐\"\n",
"    \"Pwyll Pendefig Dyfed\" -> \"푸이흘 펜데비그 더베드\"\n",
"    \"Chwedlau Odo\"         -> \"훼들라이 오도\"\n",
"    \"Brânwen\"              -> \"브란웬\"\n",
"    \"Annwn\"                -> \"아눈\"\n",
"    \"Beli Mawr\"            -> \"벨리 마우르\"\n",
"    \"Rhonabwy\"             -> \"흐로나부이\"\n",
"    \"Aneirin\"              -> \"아네이린\"\n",
"    \"Rhiannon\"             -> \"흐리아논\"\n",
"    \"Taliesin\"             -> \"탈리에신\"\n",
"    \"Manawydan\"            -> \"마나위단\"\n",
"    \"Llŷr\"                 -> \"흘리르\"\n",
"    \"Geraint\"              -> \"게라인트\"\n",
"    \"Math fab Mathonwy\"    -> \"마스 바브 마소누이\"\n",
"    \"Tegwaret\"             -> \"테과렛\"\n"]

theorem lines21_ok : Part false lang macros vars (str "transcribe") lines21 (str "test") := by
  apply piece_of
  · dsimp only [lines21]; repeat (first | exact .nil | apply Spells.cons)
  · decide +kernel

end Verif.Specs.Wlm
