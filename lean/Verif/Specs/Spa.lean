import Verif.Proofs.Bundle

/-! specs/spa.hsl, generated by tools/gen_specs.py. -/

set_option Elab.async false

namespace Verif.Specs.Spa

open Hsl

/-- The language of the spec. -/
def lang : Language :=
  ⟨str "spa", (str "es", str "spa"), str "Spanish", str "스페인어", str "Latn", []⟩

def macros : List (Bytes × Bytes) := [(str "@", str "<vowels>")]

def vars : List (Bytes × List Bytes) := [(str "vowels", [str "a", str "e", str "i", str "o", str "u", str "ü", str "y"])]

def keys : List (Rune × List Rune) := [(209, [241]),
  (220, [252]), (471, [252])]

def kept : List Rune := [241, 252]

def head : List String := [
"lang:\n",
"    id      = \"spa\"\n",
"    codes   = \"es\", \"spa\"\n",
"    english = \"Spanish\"\n",
"    korean  = \"스페인어\"\n",
"    script  = \"Latn\"\n",
"\n",
"config:\n",
"    author = \"Brian Jongseong Park <iceager@gmail.com>\"\n",
"    stage  = \"draft\"\n",
"\n",
"macros:\n",
"    \"@\" = \"<vowels>\"\n",
"\n",
"vars:\n",
"    \"vowels\" = \"a\", \"e\", \"i\", \"o\", \"u\", \"ü\", \"y\"\n",
"\n",
"normalize:\n",
"    \"ñ\" = \"Ñ\"\n",
"    \"ü\" = \"Ü\", \"Ǘ\"\n",
"\n"]

theorem head_ok : ∃ xs, Reads [] (runes (text head)) xs (str "normalize") ∧ headOk lang macros vars keys kept xs = true := by
  apply piece_of
  · dsimp only [head]; repeat (first | exact .nil | apply Spells.cons)
  · decide +kernel

def lines1 : List String := [
"rewrite:\n",
"    \"ññ\"            -> \"ñ\"\n",
"    \"ñ{@}\"          -> \"nY\"\n",
"    \"^y{@}\"         -> \"Y\"\n",
"    \"{@}y{@}\"       -> \"Y\"\n",
"    \"y\"             -> \"i\"\n",
"    \"aa\"            -> \"a\"\n",
"    \"ee\"            -> \"e\"\n",
"    \"ii\"            -> \"i\"\n",
"    \"oo\"            -> \"o\"\n",
"    \"uu\"            -> \"u\"\n"]

theorem lines1_ok : Part true lang macros vars (str "normalize") lines1 (str "rewrite") := by
  apply piece_of
  · dsimp only [lines1]; repeat (first | exact .nil | apply Spells.cons)
  · decide +kernel

def lines2 : List String := [
"    \"hh\"            -> \"h\"\n",
"    \"k$\"            -> \"kX\"\n",
"    \"{@}cc{e|i}\"    -> \"ks\"\n",
"    \"ch{@}\"         -> \"C\"\n",
"    \"h\"             -> \"\"\n",
"    \"ll\"            -> \"Y\"\n",
"    \"c{k|q|x}\"      -> \"\"\n",
"    \"cc\"            -> \"c\"\n",
"    \"c{e|i}\"        -> \"s\"\n",
"    \"c\"             -> \"k\"\n"]

theorem lines2_ok : Part true lang macros vars (str "rewrite") lines2 (str "rewrite") := by
  apply piece_of
  · dsimp only [lines2]; repeat (first | exact .nil | apply Spells.cons)
  · decide +kernel

def lines3 : List String := [
"    \"n{j|k|g|q|x}\"  -> \"N\"\n",
"    \"g{e|i}\"        -> \"j\"\n",
"    \"{g|q}ü{a|e|i}\" -> \"W\"\n",
"    \"ü\"             -> \"u\"\n",
"    \"{g|q}u{e|i}\"   -> \"\"\n",
"    \"{g|q}ua\"       -> \"Wa\"\n",
"    \"q\"             -> \"k\"\n",
"    \"ww\"            -> \"w\"\n",
"    \"^w{@}\"         -> \"W\"\n",
"    \"{@}w{@}\"       -> \"W\"\n"]

theorem lines3_ok : Part true lang macros vars (str "rewrite") lines3 (str "rewrite") := by
  apply piece_of
  · dsimp only [lines3]; repeat (first | exact .nil | apply Spells.cons)
  · decide +kernel

def lines4 : List String := [
"    \"w\"             -> \"XW\"\n",
"    \"xx\"            -> \"x\"\n",
"    \"^x{@}\"         -> \"s\"\n",
"    \"{@}x\"          -> \"ks\"\n",
"    \"bb\"            -> \"b\"\n",
"    \"dd\"            -> \"d\"\n",
"    \"ff\"            -> \"f\"\n",
"    \"gg\"            -> \"g\"\n",
"    \"jj\"            -> \"j\"\n",
"    \"kk\"            -> \"k\"\n"]

theorem lines4_ok : Part true lang macros vars (str "rewrite") lines4 (str "rewrite") := by
  apply piece_of
  · dsimp only [lines4]; repeat (first | exact .nil | apply Spells.cons)
  · decide +kernel

def lines5 : List String := [
"    \"mm\"            -> \"m\"\n",
"    \"nn\"            -> \"n\"\n",
"    \"pp\"            -> \"p\"\n",
"    \"rr\"            -> \"r\"\n",
"    \"z\"             -> \"s\"\n",
"    \"ss\"            -> \"s\"\n",
"    \"tt\"            -> \"t\"\n",
"    \"vv\"            -> \"v\"\n",
"    \"^m\"            -> \"P\"\n",
"    \"^n\"            -> \"Q\"\n",
"\n"]

theorem lines5_ok : Part true lang macros vars (str "rewrite") lines5 (str "rewrite") := by
  apply piece_of
  · dsimp only [lines5]; repeat (first | exact .nil | apply Spells.cons)
  · decide +kernel

def lines6 : List String := [
"transcribe:\n",
"    \"b\"              -> \"ㅂ\"\n",
"    \"C\"              -> \"ㅊ\"\n",
"    \"d\"              -> \"ㄷ\"\n",
"    \"f\"              -> \"ㅍ\"\n",
"    \"g\"              -> \"ㄱ\"\n",
"    \"j{@}\"           -> \"ㅎ\"\n",
"    \"j\"              -> \"\"\n",
"    \"^k\"             -> \"ㅋ\"\n",
"    \"k{@|l|m|n|r|X}\" -> \"ㅋ\"\n",
"    \"{@}k\"           -> \"-ㄱ\"\n"]

theorem lines6_ok : Part true lang macros vars (str "rewrite") lines6 (str "transcribe") := by
  apply piece_of
  · dsimp only [lines6]; repeat (first | exact .nil | apply Spells.cons)
  · decide +kernel

def lines7 : List String := [
"    \"k\"              -> \"ㅋ\"\n",
"    \"{m|n}l\"         -> \"ㄹ\"\n",
"    \"^l\"             -> \"ㄹ\"\n",
"    \"l{@}\"           -> \"-ㄹㄹ\"\n",
"    \"l\"              -> \"-ㄹ\"\n",
"    \"P\"              -> \"ㅁ\"\n",
"    \"m{@}\"           -> \"ㅁ\"\n",
"    \"m\"              -> \"-ㅁ\"\n",
"    \"Q\"              -> \"ㄴ\"\n",
"    \"n{@|Y}\"         -> \"ㄴ\"\n"]

theorem lines7_ok : Part true lang macros vars (str "transcribe") lines7 (str "transcribe") := by
  apply piece_of
  · dsimp only [lines7]; repeat (first | exact .nil | apply Spells.cons)
  · decide +kernel

def lines8 : List String := [
"    \"n\"              -> \"-ㄴ\"\n",
"    \"N\"              -> \"-ㅇ\"\n",
"    \"p{@|l|m|n|r|X}\" -> \"ㅍ\"\n",
"    \"{@}p\"           -> \"-ㅂ\"\n",
"    \"p\"              -> \"ㅍ\"\n",
"    \"r\"              -> \"ㄹ\"\n",
"    \"s\"              -> \"ㅅ\"\n",
"    \"t\"              -> \"ㅌ\"\n",
"    \"v\"              -> \"ㅂ\"\n",
"    \"Ya\"             -> \"ㅑ\"\n"]

theorem lines8_ok : Part true lang macros vars (str "transcribe") lines8 (str "transcribe") := by
  apply piece_of
  · dsimp only [lines8]; repeat (first | exact .nil | apply Spells.cons)
  · decide +kernel

def lines9 : List String := [
"    \"Ye\"             -> \"ㅖ\"\n",
"    \"Yi\"             -> \"ㅣ\"\n",
"    \"Yo\"             -> \"ㅛ\"\n",
"    \"Yu\"             -> \"ㅠ\"\n",
"    \"Wa\"             -> \"ㅘ\"\n",
"    \"We\"             -> \"ㅞ\"\n",
"    \"Wi\"             -> \"ㅟ\"\n",
"    \"a\"              -> \"ㅏ\"\n",
"    \"e\"              -> \"ㅔ\"\n",
"    \"i\"              -> \"ㅣ\"\n"]

theorem lines9_ok : Part true lang macros vars (str "transcribe") lines9 (str "transcribe") := by
  apply piece_of
  · dsimp only [lines9]; repeat (first | exact .nil | apply Spells.cons)
  · decide +kernel

def lines10 : List String := [
"    \"o\"              -> \"ㅗ\"\n",
"    \"u\"              -> \"ㅜ\"\n",
"\n"]

theorem lines10_ok : Part true lang macros vars (str "transcribe") lines10 (str "transcribe") := by
  apply piece_of
  · dsimp only [lines10]; repeat (first | exact .nil | apply Spells.cons)
  · decide +kernel

def lines11 : List String := [
"test:\n",
"    \"quisquilla\"           -> \"키스키야\"\n",
"    \"braceo\"               -> \"브라세오\"\n",
"    \"colcren\"              -> \"콜크렌\"\n",
"    \"ñoñez\"                -> \"뇨녜스\"\n",
"    \"xilofono\"             -> \"실로포노\"\n",
"    \"yuxta\"                -> \"육스타\"\n",
"    \"giganta\"              -> \"히간타\"\n",
"    \"ganga\"                -> \"강가\"\n",
"    \"coquito\"              -> \"코키토\"\n",
"    \"flan\"                 -> \"플란\"\n",
"    \"cifra\"                -> \"시프라\"\n",
"    \"Cecilia\"              -> \"세실리아\"\n",
"    \"bistec\"               -> \"비스텍\"\n",
"    \"ocal\"                 -> \"오칼\"\n",
"    \"fuga\"                 -> \"푸가\"\n",
"    \"laxante\"              -> \"락산테\"\n",
"    \"queso\"                -> \"케소\"\n",
"    \"dictado\"              -> \"딕타도\"\n",
"    \"Ángeles\"              -> \"앙헬레스\"\n",
"    \"jueves\"               -> \"후에베스\"\n",
"    \"güerrero\"             -> \"궤레로\"\n",
"    \"llama\"                -> \"야마\"\n",
"    \"plantón\"              -> \"플란톤\"\n",
"    \"mañana\"               -> \"마냐나\"\n",
"    \"accion\"               -> \"악시온\"\n",
"    \"yungla\"               -> \"융글라\"\n",
"    \"José Ortega y Gasset\" -> \"호세 오르테가 이 가세트\"\n",
"    \"kapok\"                -> \"카포크\"\n",
"    \"viudedad\"             -> \"비우데다드\"\n",
"    \"membrete\"             -> \"멤브레테\"\n",
"    \"antiguo\"              -> \"안티구오\"\n",
"    \"felicidad\"            -> \"펠리시다드\"\n",
"    \"Nicaragua\"            -> \"니카라과\"\n",
"    \"blandon\"              -> \"블란돈\"\n",
"    \"tetraetro\"            -> \"테트라에트로\"\n",
"    \"carreterra\"           -> \"카레테라\"\n",
"    \"guerra\"               -> \"게라\"\n",
"    \"Quarai\"               -> \"콰라이\"\n",
"    \"xenón\"                -> \"세논\"\n",
"    \"Quorem\"               -> \"쿠오렘\"\n",
"    \"walkirias\"            -> \"왈키리아스\"\n",
"    \"geologia\"             -> \"헤올로히아\"\n",
"    \"pepsina\"              -> \"펩시나\"\n",
"    \"blanco\"               -> \"블랑코\"\n",
"    \"lluvia\"               -> \"유비아\"\n",
"    \"Güicho\"               -> \"귀초\"\n",
"    \"gato\"                 -> \"가토\"\n",
"    \"Gamiño\"               -> \"가미뇨\"\n",
"    \"carrera\"              -> \"카레라\"\n",
"    \"Lulio\"                -> \"룰리오\"\n",
"    \"quehacer\"             -> \"케아세르\"\n",
"    \"Guipuzcoa\"            -> \"기푸스코아\"\n",
"    \"noche\"                -> \"노체\"\n",
"    \"rascador\"             -> \"라스카도르\"\n",
"    \"fran\"                 -> \"프란\"\n",
"    \"zagal\"                -> \"사갈\"\n",
"    \"georgico\"             -> \"헤오르히코\"\n",
"    \"lacrar\"               -> \"라크라르\"\n",
"    \"hipo\"                 -> \"이포\"\n",
"    \"coccion\"              -> \"콕시온\"\n",
"    \"sastreria\"            -> \"사스트레리아\"\n",
"    \"chicharra\"            -> \"치차라\"\n",
"    \"biz\"                  -> \"비스\"\n",
"    \"liquidez\"             -> \"리키데스\"\n",
"    \"reloj\"                -> \"렐로\"\n",
"\n",
"    # Football players\n",
"    \"Gabriel Batistuta\"   -> \"가브리엘 바티스투타\"\n",
"    \"Diego Maradona\"      -> \"디에고 마라도나\"\n",
"    \"Diego Simeone\"       -> \"디에고 시메오네\"\n",
"    \"Mario Kempes\"        -> \"마리오 켐페스\"\n",
"    \"Mauricio Pochettino\" -> \"마우리시오 포체티노\"\n"]

theorem lines11_ok : Part true lang macros vars (str "transcribe") lines11 (str "test") := by
  apply piece_of
  · dsimp only [lines11]; repeat (first | exact .nil | apply Spells.cons)
  · decide +kernel

/-- The lines of the file. -/
def lines : List String := head ++ (lines1 ++ (lines2 ++ (lines3 ++ (lines4 ++ (lines5 ++ (lines6 ++ (lines7 ++ (lines8 ++ (lines9 ++ (lines10 ++ (lines11)))))))))))

/-- The file is a spec with checked rules. -/
theorem sound : Sound (text lines) lang := sound_of head_ok (lines1_ok.append (lines2_ok.append (lines3_ok.append (lines4_ok.append (lines5_ok.append (lines6_ok.append (lines7_ok.append (lines8_ok.append (lines9_ok.append (lines10_ok.append (lines11_ok))))))))))) (by decide +kernel)

end Verif.Specs.Spa
