import Verif.Specs.CymHead

/-! specs/cym.hsl, part 2, generated by tools/gen_specs.py. -/

set_option Elab.async false

namespace Verif.Specs.Cym

open Hsl

def lines17 : List String := [
"    \"j\"    -> \"ㅈ\"\n",
"    \"^l\"   -> \"ㄹ\"\n",
"    \"{,}l\" -> \"ㄹ\"\n",
"    \"l,\"   -> \"-ㄹ\"\n",
"    \"l\"    -> \"-ㄹㄹ\"\n",
"    \"m,\"   -> \"-ㅁ\"\n",
"    \"m\"    -> \"ㅁ\"\n",
"    \"n,\"   -> \"-ㄴ\"\n",
"    \"n\"    -> \"ㄴ\"\n",
"    \"N\"    -> \"-ㅇ\"\n"]

theorem lines17_ok : Part false lang macros vars (str "transcribe") lines17 (str "transcribe") := by
  apply piece_of
  · dsimp only [lines17]; repeat (first | exact .nil | apply Spells.cons)
  · decide +kernel

def lines18 : List String := [
"    \"p,\"   -> \"-ㅂ\"\n",
"    \"p\"    -> \"ㅍ\"\n",
"    \"r\"    -> \"ㄹ\"\n",
"    \"s\"    -> \"ㅅ\"\n",
"    \"t,\"   -> \"-ㅅ\"\n",
"    \"t\"    -> \"ㅌ\"\n",
"    \"T\"    -> \"ㅅ\"\n",
"    \"Ja\"   -> \"ㅑ\"\n",
"    \"Je\"   -> \"ㅖ\"\n",
"    \"Ji\"   -> \"ㅣ\"\n"]

theorem lines18_ok : Part false lang macros vars (str "transcribe") lines18 (str "transcribe") := by
  apply piece_of
  · dsimp only [lines18]; repeat (first | exact .nil | apply Spells.cons)
  · decide +kernel

def lines19 : List String := [
"    \"Jo\"   -> \"ㅛ\"\n",
"    \"JU\"   -> \"ㅠ\"\n",
"    \"JQ\"   -> \"ㅕ\"\n",
"    \"Wa\"   -> \"ㅘ\"\n",
"    \"We\"   -> \"ㅞ\"\n",
"    \"Wi\"   -> \"ㅟ\"\n",
"    \"Wo\"   -> \"ㅝ\"\n",
"    \"WU\"   -> \"ㅜ\"\n",
"    \"WQ\"   -> \"ㅝ\"\n",
"    \"a\"    -> \"ㅏ\"\n"]

theorem lines19_ok : Part false lang macros vars (str "transcribe") lines19 (str "transcribe") := by
  apply piece_of
  · dsimp only [lines19]; repeat (first | exact .nil | apply Spells.cons)
  · decide +kernel

def lines20 : List String := [
"    \"e\"    -> \"ㅔ\"\n",
"    \"i\"    -> \"ㅣ\"\n",
"    \"o\"    -> \"ㅗ\"\n",
"    \"U\"    -> \"ㅜ\"\n",
"    \"Q\"    -> \"ㅓ\"\n",
"    \"Y\"    -> \"ㅡ\"\n",
"    \"-|'\"  -> \"\"\n",
"\n"]

theorem lines20_ok : Part false lang macros vars (str "transcribe") lines20 (str "transcribe") := by
  apply piece_of
  · dsimp only [lines20]; repeat (first | exact .nil | apply Spells.cons)
  · decide +kernel

def lines21 : List String := [
"test:\n",
"    \"Llywelyn\"      -> \"흘러웰린\"\n",
"    \"Llangollen\"    -> \"흘란고흘렌\"\n",
"    \"Gwilym\"        -> \"귈림\"\n",
"    \"Calennig\"      -> \"칼레니그\"\n",
"    \"Gwynedd\"       -> \"귀네드\"\n",
"    \"fy ngwely\"     -> \"벙 웰리\"\n",
"    \"Brynmawr\"      -> \"브런마우르\"\n",
"    \"Aberystwyth\"   -> \"아베러스투이스\"\n",
"    \"Cerys\"         -> \"케리스\"\n",
"    \"cnapan\"        -> \"크나판\"\n",
"    \"Llanelli\"      -> \"흘라네흘리\"\n",
"    \"Ifans\"         -> \"이반스\"\n",
"    \"Huw\"           -> \"히우\"\n",
"    \"cwm\"           -> \"쿰\"\n",
"    \"Emrys\"         -> \"엠리스\"\n",
"    \"Ciaran\"        -> \"키아란\"\n",
"    \"Cymru\"         -> \"컴리\"\n",
"    \"Tawe\"          -> \"타웨\"\n",
"    \"Iwan\"          -> \"이완\"\n",
"    \"Caernarfon\"    -> \"카이르나르본\"\n",
"    \"Meredith\"      -> \"메레디스\"\n",
"    \"Ceredigion\"    -> \"케레디기온\"\n",
"    \"Ieuan\"         -> \"예이안\"\n",
"    \"Dafydd\"        -> \"다비드\"\n",
"    \"Ystradgynlais\" -> \"어스트라드건라이스\"\n",
"    \"Rhys\"          -> \"흐리스\"\n",
"    \"Hywel\"         -> \"허웰\"\n",
"    \"Powys\"         -> \"포위스\"\n",
"    \"Glyndŵr\"       -> \"글런두르\"\n",
"    \"Banc Ty'nddôl\" -> \"방크 턴돌\"\n",
"    \"Cymraeg\"       -> \"컴라이그\"\n",
"    \"Myfanwy\"       -> \"머바누이\"\n",
"    \"Llinor\"        -> \"흘리노르\"\n",
"    \"fy nhadau\"     -> \"번 하다이\"\n"]

theorem lines21_ok : Part false lang macros vars (str "transcribe") lines21 (str "test") := by
  apply piece_of
  · dsimp only [lines21]; repeat (first | exact .nil | apply Spells.cons)
  · decide +kernel

end Verif.Specs.Cym
