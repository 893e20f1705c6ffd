import Verif.Specs.PorBrHead

/-! specs/por-br.hsl, part 2, generated by tools/gen_specs.py. -/

set_option Elab.async false

namespace Verif.Specs.PorBr

open Hsl

def lines17 : List String := [
"    \"{,}l\" -> \"ㄹ\"\n",
"    \"l\"    -> \"-ㄹㄹ\"\n",
"    \"m,\"   -> \"-ㅁ\"\n",
"    \"m\"    -> \"ㅁ\"\n",
"    \"n,\"   -> \"-ㄴ\"\n",
"    \"n\"    -> \"ㄴ\"\n",
"    \"~\"    -> \"-ㅇ\"\n",
"    \"p,\"   -> \"-ㅂ\"\n",
"    \"p\"    -> \"ㅍ\"\n",
"    \"r\"    -> \"ㄹ\"\n"]

theorem lines17_ok : Part true lang macros vars (str "transcribe") lines17 (str "transcribe") := by
  apply piece_of
  · dsimp only [lines17]; repeat (first | exact .nil | apply Spells.cons)
  · decide +kernel

def lines18 : List String := [
"    \"R\"    -> \"ㅎ\"\n",
"    \"S\"    -> \"ㅅ\"\n",
"    \"t,\"   -> \"-ㅅ\"\n",
"    \"t\"    -> \"ㅌ\"\n",
"    \"T\"    -> \"ㅊ\"\n",
"    \"v\"    -> \"ㅂ\"\n",
"    \"z\"    -> \"ㅈ\"\n",
"    \"Ya\"   -> \"ㅑ\"\n",
"    \"Ye\"   -> \"ㅖ\"\n",
"    \"Yi\"   -> \"ㅣ\"\n"]

theorem lines18_ok : Part true lang macros vars (str "transcribe") lines18 (str "transcribe") := by
  apply piece_of
  · dsimp only [lines18]; repeat (first | exact .nil | apply Spells.cons)
  · decide +kernel

def lines19 : List String := [
"    \"Yo\"   -> \"ㅛ\"\n",
"    \"Yu\"   -> \"ㅠ\"\n",
"    \"YQ\"   -> \"ㅡ\"\n",
"    \"Wa\"   -> \"ㅘ\"\n",
"    \"We\"   -> \"ㅞ\"\n",
"    \"Wi\"   -> \"ㅟ\"\n",
"    \"Wo\"   -> \"ㅝ\"\n",
"    \"Wu\"   -> \"ㅜ\"\n",
"    \"WQ\"   -> \"ㅔ\"\n",
"    \"a\"    -> \"ㅏ\"\n"]

theorem lines19_ok : Part true lang macros vars (str "transcribe") lines19 (str "transcribe") := by
  apply piece_of
  · dsimp only [lines19]; repeat (first | exact .nil | apply Spells.cons)
  · decide +kernel

def lines20 : List String := [
"    \"e\"    -> \"ㅔ\"\n",
"    \"i\"    -> \"ㅣ\"\n",
"    \"o\"    -> \"ㅗ\"\n",
"    \"u\"    -> \"ㅜ\"\n",
"    \"Q\"    -> \"ㅡ\"\n",
"    \"h\"    -> \"\"\n",
"\n"]

theorem lines20_ok : Part true lang macros vars (str "transcribe") lines20 (str "transcribe") := by
  apply piece_of
  · dsimp only [lines20]; repeat (first | exact .nil | apply Spells.cons)
  · decide +kernel

def lines21 : List String := [
"test:\n",
"    \"Dorneles\"   -> \"도르넬리스\"\n",
"    \"Montes\"     -> \"몬치스\"\n",
"    \"Diamantina\" -> \"지아만치나\"\n",
"    \"Gilberto\"   -> \"지우베르투\"\n",
"    \"Caracol\"    -> \"카라코우\"\n",
"    \"Correntes\"  -> \"코헨치스\"\n",
"    \"Alegrete\"   -> \"알레그레치\"\n",
"    \"de\"         -> \"지\"\n",
"    \"Chifre\"     -> \"시프리\"\n",
"\n",
"    # Football players\n",
"    \"Neymar Júnior\"  -> \"네이마르 주니오르\"\n",
"    \"Ronaldo\"        -> \"호나우두\"\n",
"    \"Ronaldinho\"     -> \"호나우지뉴\"\n",
"    \"Roberto Carlos\" -> \"호베르투 카를루스\"\n",
"    \"Rivaldo\"        -> \"히바우두\"\n",
"    \"Pelé\"           -> \"펠레\"\n"]

theorem lines21_ok : Part true lang macros vars (str "transcribe") lines21 (str "test") := by
  apply piece_of
  · dsimp only [lines21]; repeat (first | exact .nil | apply Spells.cons)
  · decide +kernel

end Verif.Specs.PorBr
