import Verif.Proofs.Bundle

/-! specs/epo.hsl, generated by tools/gen_specs.py. -/

set_option Elab.async false

namespace Verif.Specs.Epo

open Hsl

/-- The language of the spec. -/
def lang : Language :=
  ⟨str "epo", (str "eo", str "epo"), str "Esperanto", str "에스페란토어", str "Latn", []⟩

def macros : List (Bytes × Bytes) := [(str "@", str "<vowels>")]

def vars : List (Bytes × List Bytes) := [(str "ob", [str "b", str "c", str "C", str "d", str "f", str "g", str "G", str "h", str "H", str "J", str "k", str "p", str "s", str "S", str "t", str "v", str "z"]),
  (str "vowels", [str "a", str "e", str "i", str "o", str "u"])]

def keys : List (Rune × List Rune) := [(292, [293]),
  (264, [265]),
  (348, [349]),
  (364, [365]),
  (308, [309]),
  (284, [285])]

def kept : List Rune := [293, 265, 349, 365, 309, 285]

def head : List String := [
"lang:\n",
"    id      = \"epo\"\n",
"    codes   = \"eo\", \"epo\"\n",
"    english = \"Esperanto\"\n",
"    korean  = \"에스페란토어\"\n",
"    script  = \"Latn\"\n",
"\n",
"config:\n",
"    author = \"Yunwon Jeong\"\n",
"    stage  = \"draft\"\n",
"\n",
"macros:\n",
"    \"@\" = \"<vowels>\"\n",
"\n",
"vars:\n",
"    \"ob\"     = \"b\", \"c\", \"C\", \"d\", \"f\", \"g\", \"G\", \"h\", \"H\", \"J\", \"k\", \"p\", \"s\", \"S\", \"t\", \"v\", \"z\"\n",
"    \"vowels\" = \"a\", \"e\", \"i\", \"o\", \"u\"\n",
"\n",
"normalize:\n",
"    \"ĥ\" = \"Ĥ\"\n",
"    \"ĉ\" = \"Ĉ\"\n",
"    \"ŝ\" = \"Ŝ\"\n",
"    \"ŭ\" = \"Ŭ\"\n",
"    \"ĵ\" = \"Ĵ\"\n",
"    \"ĝ\" = \"Ĝ\"\n",
"\n"]

theorem head_ok : ∃ xs, Reads [] (runes (text head)) xs (str "normalize") ∧ headOk lang macros vars keys kept xs = true := by
  apply piece_of
  · dsimp only [head]; repeat (first | exact .nil | apply Spells.cons)
  · decide +kernel

def lines1 : List String := [
"rewrite:\n",
"    \"-\"           -> \"{}\"\n",
"    \"cx\"          -> \"ĉ\"\n",
"    \"gx\"          -> \"ĝ\"\n",
"    \"hx\"          -> \"ĥ\"\n",
"    \"jx\"          -> \"ĵ\"\n",
"    \"sx\"          -> \"ŝ\"\n",
"    \"ux\"          -> \"ŭ\"\n",
"    \"qu\"          -> \"kŭ\"\n",
"    \"w\"           -> \"ŭ\"\n",
"    \"x\"           -> \"ks\"\n"]

theorem lines1_ok : Part true lang macros vars (str "normalize") lines1 (str "rewrite") := by
  apply piece_of
  · dsimp only [lines1]; repeat (first | exact .nil | apply Spells.cons)
  · decide +kernel

def lines2 : List String := [
"    \"^y{@}\"       -> \"Y\"\n",
"    \"{@}y{@}\"     -> \"Y\"\n",
"    \"iy\"          -> \"i\"\n",
"    \"y\"           -> \"i\"\n",
"    \"ĉ\"           -> \"C\"\n",
"    \"ĝ\"           -> \"G\"\n",
"    \"ĥ\"           -> \"H\"\n",
"    \"ĵ\"           -> \"J\"\n",
"    \"ŝ\"           -> \"S\"\n",
"    \"ŭ\"           -> \"U\"\n"]

theorem lines2_ok : Part true lang macros vars (str "rewrite") lines2 (str "rewrite") := by
  apply piece_of
  · dsimp only [lines2]; repeat (first | exact .nil | apply Spells.cons)
  · decide +kernel

def lines3 : List String := [
"    \"^j{@}\"       -> \"Y\"\n",
"    \"{@}j{@}\"     -> \"Y\"\n",
"    \"ij\"          -> \"i\"\n",
"    \"{c|C}j{@}\"   -> \"\"\n",
"    \"{G|J|z}j{@}\" -> \"\"\n",
"    \"j\"           -> \"i\"\n",
"    \"{g|k|h|H}U\"  -> \";U\"\n",
"    \"U\"           -> \"%U\"\n",
"    \";%\"          -> \"\"\n",
"    \"C{@}\"        -> \"c\"\n"]

theorem lines3_ok : Part true lang macros vars (str "rewrite") lines3 (str "rewrite") := by
  apply piece_of
  · dsimp only [lines3]; repeat (first | exact .nil | apply Spells.cons)
  · decide +kernel

def lines4 : List String := [
"    \"C\"           -> \"ci\"\n",
"    \"J{@}\"        -> \"G\"\n",
"    \"J\"           -> \"Gu\"\n",
"    \"S{@}\"        -> \"sj\"\n",
"    \"S$\"          -> \"si\"\n",
"    \"S\"           -> \"sju\"\n",
"    \"{@}k{<ob>}\"  -> \"k,\"\n",
"    \"{@}p{<ob>}\"  -> \"p,\"\n",
"    \"{@}t{<ob>}\"  -> \"t,\"\n",
"    \"^l\"          -> \"l;\"\n"]

theorem lines4_ok : Part true lang macros vars (str "rewrite") lines4 (str "rewrite") := by
  apply piece_of
  · dsimp only [lines4]; repeat (first | exact .nil | apply Spells.cons)
  · decide +kernel

def lines5 : List String := [
"    \"^m\"          -> \"m;\"\n",
"    \"^n\"          -> \"n;\"\n",
"    \"l$\"          -> \"l,\"\n",
"    \"m$\"          -> \"m,\"\n",
"    \"n$\"          -> \"n,\"\n",
"    \"l{@|m,|n,}\"  -> \"l;\"\n",
"    \"{,}l\"        -> \"l;\"\n",
"    \"m{@}\"        -> \"m;\"\n",
"    \"n{@}\"        -> \"n;\"\n",
"    \"l\"           -> \"l,\"\n"]

theorem lines5_ok : Part true lang macros vars (str "rewrite") lines5 (str "rewrite") := by
  apply piece_of
  · dsimp only [lines5]; repeat (first | exact .nil | apply Spells.cons)
  · decide +kernel

def lines6 : List String := [
"    \"m\"           -> \"m,\"\n",
"    \"n\"           -> \"n,\"\n",
"    \",,\"          -> \",\"\n",
"    \",;\"          -> \"\"\n",
"    \",l,\"         -> \"l,\"\n",
"    \",m,\"         -> \"m,\"\n",
"    \",n,\"         -> \"n,\"\n",
"    \"l{m;|n;}\"    -> \"l,\"\n",
"    \";\"           -> \"\"\n",
"\n"]

theorem lines6_ok : Part true lang macros vars (str "rewrite") lines6 (str "rewrite") := by
  apply piece_of
  · dsimp only [lines6]; repeat (first | exact .nil | apply Spells.cons)
  · decide +kernel

def lines7 : List String := [
"transcribe:\n",
"    \"b\"    -> \"ㅂ\"\n",
"    \"c\"    -> \"ㅊ\"\n",
"    \"d\"    -> \"ㄷ\"\n",
"    \"f\"    -> \"ㅍ\"\n",
"    \"g\"    -> \"ㄱ\"\n",
"    \"G\"    -> \"ㅈ\"\n",
"    \"h\"    -> \"ㅎ\"\n",
"    \"H\"    -> \"ㅎ\"\n",
"    \"k,\"   -> \"-ㄱ\"\n",
"    \"k\"    -> \"ㅋ\"\n"]

theorem lines7_ok : Part true lang macros vars (str "rewrite") lines7 (str "transcribe") := by
  apply piece_of
  · dsimp only [lines7]; repeat (first | exact .nil | apply Spells.cons)
  · decide +kernel

def lines8 : List String := [
"    \"^l\"   -> \"ㄹ\"\n",
"    \"{,}l\" -> \"ㄹ\"\n",
"    \"l,\"   -> \"-ㄹ\"\n",
"    \"l\"    -> \"-ㄹㄹ\"\n",
"    \"m,\"   -> \"-ㅁ\"\n",
"    \"m\"    -> \"ㅁ\"\n",
"    \"n,\"   -> \"-ㄴ\"\n",
"    \"n\"    -> \"ㄴ\"\n",
"    \"p,\"   -> \"-ㅂ\"\n",
"    \"p\"    -> \"ㅍ\"\n"]

theorem lines8_ok : Part true lang macros vars (str "transcribe") lines8 (str "transcribe") := by
  apply piece_of
  · dsimp only [lines8]; repeat (first | exact .nil | apply Spells.cons)
  · decide +kernel

def lines9 : List String := [
"    \"r\"    -> \"ㄹ\"\n",
"    \"s\"    -> \"ㅅ\"\n",
"    \"t,\"   -> \"-ㅅ\"\n",
"    \"t\"    -> \"ㅌ\"\n",
"    \"v\"    -> \"ㅂ\"\n",
"    \"z\"    -> \"ㅈ\"\n",
"    \"%\"    -> \"ㅇ\"\n",
"    \"Ya\"   -> \"ㅑ\"\n",
"    \"Ye\"   -> \"ㅖ\"\n",
"    \"Yi\"   -> \"ㅣ\"\n"]

theorem lines9_ok : Part true lang macros vars (str "transcribe") lines9 (str "transcribe") := by
  apply piece_of
  · dsimp only [lines9]; repeat (first | exact .nil | apply Spells.cons)
  · decide +kernel

def lines10 : List String := [
"    \"Yo\"   -> \"ㅛ\"\n",
"    \"Yu\"   -> \"ㅠ\"\n",
"    \"Ua\"   -> \"ㅘ\"\n",
"    \"Ue\"   -> \"ㅞ\"\n",
"    \"Ui\"   -> \"ㅟ\"\n",
"    \"Uo\"   -> \"ㅝ\"\n",
"    \"Uu\"   -> \"ㅜ\"\n",
"    \"a\"    -> \"ㅏ\"\n",
"    \"e\"    -> \"ㅔ\"\n",
"    \"i\"    -> \"ㅣ\"\n"]

theorem lines10_ok : Part true lang macros vars (str "transcribe") lines10 (str "transcribe") := by
  apply piece_of
  · dsimp only [lines10]; repeat (first | exact .nil | apply Spells.cons)
  · decide +kernel

def lines11 : List String := [
"    \"o\"    -> \"ㅗ\"\n",
"    \"u\"    -> \"ㅜ\"\n",
"    \"U\"    -> \"ㅜ\"\n",
"\n"]

theorem lines11_ok : Part true lang macros vars (str "transcribe") lines11 (str "transcribe") := by
  apply piece_of
  · dsimp only [lines11]; repeat (first | exact .nil | apply Spells.cons)
  · decide +kernel

def lines12 : List String := [
"test:\n",
"    \"Jes\"                            -> \"예스\"\n",
"    \"Supersigno\"                     -> \"수페르시그노\"\n",
"    \"lingve universala\"              -> \"린그베 우니베르살라\"\n",
"    \"Ĝis revido\"                     -> \"지스 레비도\"\n",
"    \"Dua Libro\"                      -> \"두아 리브로\"\n",
"    \"Ne\"                             -> \"네\"\n",
"    \"Ĉu vi fartas bone\"              -> \"추 비 파르타스 보네\"\n",
"    \"Unua Libro\"                     -> \"우누아 리브로\"\n",
"    \"La Espero\"                      -> \"라 에스페로\"\n",
"    \"Esperantujo\"                    -> \"에스페란투요\"\n",
"    \"Raŭmismo\"                       -> \"라우미스모\"\n",
"    \"La Ondo de Esperanto\"           -> \"라 온도 데 에스페란토\"\n",
"    \"riismo\"                         -> \"리이스모\"\n",
"    \"Gogo kaj liaj amikoj\"           -> \"고고 카이 리아이 아미코이\"\n",
"    \"Finvenkismo\"                    -> \"핀벤키스모\"\n",
"    \"Adiaŭ\"                          -> \"아디아우\"\n",
"    \"Ĉapelo\"                         -> \"차펠로\"\n",
"    \"Civitanismo\"                    -> \"치비타니스모\"\n",
"    \"Literatura Foiro\"               -> \"리테라투라 포이로\"\n",
"    \"Lingvo Internacia\"              -> \"린그보 인테르나치아\"\n",
"    \"Fonto\"                          -> \"폰토\"\n",
"    \"La Teatra Movado dum la Milito\" -> \"라 테아트라 모바도 둠 라 밀리토\"\n",
"    \"Saluton\"                        -> \"살루톤\"\n",
"    \"Ĉu vi pretas?\"                  -> \"추 비 프레타스?\"\n",
"    \"Pasporta Servo\"                 -> \"파스포르타 세르보\"\n",
"    \"Mi tre ĝojas renkonti vin\"      -> \"미 트레 조야스 렌콘티 빈\"\n",
"    \"Serio Oriento-Okcidento\"        -> \"세리오 오리엔토옥치덴토\"\n",
"    \"La Esperantisto\"                -> \"라 에스페란티스토\"\n",
"    \"Mi estas koreo\"                 -> \"미 에스타스 코레오\"\n",
"    \"Dankon\"                         -> \"단콘\"\n",
"    \"iĉismo\"                         -> \"이치스모\"\n",
"    \"Fundamento de Esperanto\"        -> \"푼다멘토 데 에스페란토\"\n",
"\n"]

theorem lines12_ok : Part true lang macros vars (str "transcribe") lines12 (str "test") := by
  apply piece_of
  · dsimp only [lines12]; repeat (first | exact .nil | apply Spells.cons)
  · decide +kernel

/-- The lines of the file. -/
def lines : List String := head ++ (lines1 ++ (lines2 ++ (lines3 ++ (lines4 ++ (lines5 ++ (lines6 ++ (lines7 ++ (lines8 ++ (lines9 ++ (lines10 ++ (lines11 ++ (lines12))))))))))))

/-- The file is a spec with checked rules. -/
theorem sound : Sound (text lines) lang := sound_of head_ok (lines1_ok.append (lines2_ok.append (lines3_ok.append (lines4_ok.append (lines5_ok.append (lines6_ok.append (lines7_ok.append (lines8_ok.append (lines9_ok.append (lines10_ok.append (lines11_ok.append (lines12_ok)))))))))))) (by decide +kernel)

end Verif.Specs.Epo
