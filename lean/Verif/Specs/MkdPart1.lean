import Verif.Specs.MkdHead

/-! specs/mkd.hsl, part 1, generated by tools/gen_specs.py. -/

set_option Elab.async false

namespace Verif.Specs.Mkd

open Hsl

def lines1 : List String := [
"rewrite:\n",
"    \"град\"                    -> \"град-\"\n",
"    \"ѓураѓ\"                   -> \"џураџ\"\n",
"    \"срѓан\"                   -> \"срџан\"\n",
"    \"бб\"                      -> \"б\"\n",
"    \"вв\"                      -> \"в\"\n",
"    \"вф\"                      -> \"ф\"\n",
"    \"гг\"                      -> \"г\"\n",
"    \"дд\"                      -> \"д\"\n",
"    \"дж\"                      -> \"џ\"\n",
"    \"дц\"                      -> \"ц\"\n"]

theorem lines1_ok : Part true lang macros vars (str "vars") lines1 (str "rewrite") := by
  apply piece_of
  · dsimp only [lines1]; repeat (first | exact .nil | apply Spells.cons)
  · decide +kernel

def lines2 : List String := [
"    \"дч\"                      -> \"ч\"\n",
"    \"жж\"                      -> \"ж\"\n",
"    \"зз\"                      -> \"з\"\n",
"    \"зс\"                      -> \"с\"\n",
"    \"кк\"                      -> \"к\"\n",
"    \"лл\"                      -> \"л\"\n",
"    \"{@}мм{@}\"                -> \"м,м\"\n",
"    \"мм\"                      -> \"м\"\n",
"    \"{@}нн{@}\"                -> \"н,н\"\n",
"    \"нн\"                      -> \"н\"\n"]

theorem lines2_ok : Part true lang macros vars (str "rewrite") lines2 (str "rewrite") := by
  apply piece_of
  · dsimp only [lines2]; repeat (first | exact .nil | apply Spells.cons)
  · decide +kernel

def lines3 : List String := [
"    \"пп\"                      -> \"п\"\n",
"    \"рр\"                      -> \"р\"\n",
"    \"сс\"                      -> \"с\"\n",
"    \"тт\"                      -> \"т\"\n",
"    \"тц\"                      -> \"ц\"\n",
"    \"тч\"                      -> \"ч\"\n",
"    \"фф\"                      -> \"ф\"\n",
"    \"хх\"                      -> \"х\"\n",
"    \"цц\"                      -> \"ц\"\n",
"    \"чч\"                      -> \"ч\"\n"]

theorem lines3_ok : Part true lang macros vars (str "rewrite") lines3 (str "rewrite") := by
  apply piece_of
  · dsimp only [lines3]; repeat (first | exact .nil | apply Spells.cons)
  · decide +kernel

def lines4 : List String := [
"    \"шш\"                      -> \"ш\"\n",
"    \"шч\"                      -> \"ш\"\n",
"    \"{ѓ|ж|з|ѕ|ќ|ц|ч|џ|ш}ј{@}\" -> \"\"\n",
"    \"иј{<cs>}\"                -> \"и\"\n",
"    \"иј$\"                     -> \"и\"\n",
"    \"дз$\"                     -> \"ѕ\"\n",
"    \"дз{<cs>$}\"               -> \"ѕ\"\n",
"    \"дс$\"                     -> \"ц\"\n",
"    \"дс{<cs>}\"                -> \"ц\"\n",
"    \"тс\"                      -> \"ц\"\n"]

theorem lines4_ok : Part true lang macros vars (str "rewrite") lines4 (str "rewrite") := by
  apply piece_of
  · dsimp only [lines4]; repeat (first | exact .nil | apply Spells.cons)
  · decide +kernel

def lines5 : List String := [
"    \"дз\"                      -> \"з\"\n",
"    \"тз\"                      -> \"з\"\n",
"    \"нкт\"                     -> \"Nт\"\n",
"    \"б{<vl>}\"                 -> \"п\"\n",
"    \"б$\"                      -> \"п\"\n",
"    \"в{<vl>}\"                 -> \"ф\"\n",
"    \"в$\"                      -> \"ф\"\n",
"    \"г{<vl>}\"                 -> \"к\"\n",
"    \"г$\"                      -> \"к\"\n",
"    \"д{<vl>}\"                 -> \"т\"\n"]

theorem lines5_ok : Part true lang macros vars (str "rewrite") lines5 (str "rewrite") := by
  apply piece_of
  · dsimp only [lines5]; repeat (first | exact .nil | apply Spells.cons)
  · decide +kernel

def lines6 : List String := [
"    \"д$\"                      -> \"т\"\n",
"    \"ж{<vl>}\"                 -> \"ш\"\n",
"    \"ж$\"                      -> \"ш\"\n",
"    \"з{<vl>}\"                 -> \"с\"\n",
"    \"з$\"                      -> \"с\"\n",
"    \"ѕ{<vl>}\"                 -> \"ц\"\n",
"    \"ѕ$\"                      -> \"ц\"\n",
"    \"џ{<vl>}\"                 -> \"ч\"\n",
"    \"џ$\"                      -> \"ч\"\n",
"    \"ѓ{<vl>}\"                 -> \"ќ\"\n"]

theorem lines6_ok : Part true lang macros vars (str "rewrite") lines6 (str "rewrite") := by
  apply piece_of
  · dsimp only [lines6]; repeat (first | exact .nil | apply Spells.cons)
  · decide +kernel

def lines7 : List String := [
"    \"ѓ$\"                      -> \"ќ\"\n",
"    \"б{<vl>}\"                 -> \"п\"\n",
"    \"в{<vl>}\"                 -> \"ф\"\n",
"    \"г{<vl>}\"                 -> \"к\"\n",
"    \"д{<vl>}\"                 -> \"т\"\n",
"    \"ж{<vl>}\"                 -> \"ш\"\n",
"    \"з{<vl>}\"                 -> \"с\"\n",
"    \"ѕ{<vl>}\"                 -> \"ц\"\n",
"    \"џ{<vl>}\"                 -> \"ч\"\n",
"    \"ѓ{<vl>}\"                 -> \"ќ\"\n"]

theorem lines7_ok : Part true lang macros vars (str "rewrite") lines7 (str "rewrite") := by
  apply piece_of
  · dsimp only [lines7]; repeat (first | exact .nil | apply Spells.cons)
  · decide +kernel

def lines8 : List String := [
"    \"{@}к{<vl>}\"              -> \"к,\"\n",
"    \"{@}п{<vl>}\"              -> \"п,\"\n",
"    \"{<cs>}ј{@}\"              -> \"и\"\n",
"    \"ѓ{а|о|у}\"                -> \"гј\"\n",
"    \"ѓ{е|и}\"                  -> \"г\"\n",
"    \"ѓ\"                       -> \"ѕи\"\n",
"    \"ќ{а|о|у}\"                -> \"кј\"\n",
"    \"ќ{е|и}\"                  -> \"к\"\n",
"    \"ќ\"                       -> \"ци\"\n",
"    \"љ{а|о|у}\"                -> \"лј\"\n"]

theorem lines8_ok : Part true lang macros vars (str "rewrite") lines8 (str "rewrite") := by
  apply piece_of
  · dsimp only [lines8]; repeat (first | exact .nil | apply Spells.cons)
  · decide +kernel

def lines9 : List String := [
"    \"љ\"                       -> \"л\"\n",
"    \"њ{а|о|у}\"                -> \"нј\"\n",
"    \"њ\"                       -> \"н\"\n",
"    \"ж{@}\"                    -> \"з\"\n",
"    \"ж\"                       -> \"зу\"\n",
"    \"ч{@}\"                    -> \"ц\"\n",
"    \"ч\"                       -> \"чи\"\n",
"    \"џ{@}\"                    -> \"ѕ\"\n",
"    \"џ\"                       -> \"ѕи\"\n",
"    \"ш{@}\"                    -> \"сј\"\n"]

theorem lines9_ok : Part true lang macros vars (str "rewrite") lines9 (str "rewrite") := by
  apply piece_of
  · dsimp only [lines9]; repeat (first | exact .nil | apply Spells.cons)
  · decide +kernel

def lines10 : List String := [
"    \"ш$\"                      -> \"си\"\n",
"    \"ш\"                       -> \"сју\"\n",
"    \"^л\"                      -> \"л;\"\n",
"    \"^м\"                      -> \"м;\"\n",
"    \"^н\"                      -> \"н;\"\n",
"    \"л$\"                      -> \"л,\"\n",
"    \"м$\"                      -> \"м,\"\n",
"    \"н$\"                      -> \"н,\"\n",
"    \"л{@|ј|м,|н,|N}\"          -> \"л;\"\n",
"    \"м{@}\"                    -> \"м;\"\n"]

theorem lines10_ok : Part true lang macros vars (str "rewrite") lines10 (str "rewrite") := by
  apply piece_of
  · dsimp only [lines10]; repeat (first | exact .nil | apply Spells.cons)
  · decide +kernel

def lines11 : List String := [
"    \"н{@|ј}\"                  -> \"н;\"\n",
"    \"л\"                       -> \"л,\"\n",
"    \"м\"                       -> \"м,\"\n",
"    \"н\"                       -> \"н,\"\n",
"    \",,\"                      -> \",\"\n",
"    \",;\"                      -> \"\"\n",
"    \",л,\"                     -> \"л,\"\n",
"    \",м,\"                     -> \"м,\"\n",
"    \",н,\"                     -> \"н,\"\n",
"    \"л{м;|н;}\"                -> \"л,\"\n"]

theorem lines11_ok : Part true lang macros vars (str "rewrite") lines11 (str "rewrite") := by
  apply piece_of
  · dsimp only [lines11]; repeat (first | exact .nil | apply Spells.cons)
  · decide +kernel

def lines12 : List String := [
"    \";|-\"                     -> \"\"\n",
"\n"]

theorem lines12_ok : Part true lang macros vars (str "rewrite") lines12 (str "rewrite") := by
  apply piece_of
  · dsimp only [lines12]; repeat (first | exact .nil | apply Spells.cons)
  · decide +kernel

def lines13 : List String := [
"transcribe:\n",
"    \"б\"    -> \"ㅂ\"\n",
"    \"в\"    -> \"ㅂ\"\n",
"    \"г\"    -> \"ㄱ\"\n",
"    \"д\"    -> \"ㄷ\"\n",
"    \"ж\"    -> \"ㅈ\"\n",
"    \"з\"    -> \"ㅈ\"\n",
"    \"ѕ\"    -> \"ㅈ\"\n",
"    \"ж\"    -> \"ㅈ\"\n",
"    \"к,\"   -> \"-ㄱ\"\n",
"    \"к\"    -> \"ㅋ\"\n"]

theorem lines13_ok : Part true lang macros vars (str "rewrite") lines13 (str "transcribe") := by
  apply piece_of
  · dsimp only [lines13]; repeat (first | exact .nil | apply Spells.cons)
  · decide +kernel

def lines14 : List String := [
"    \"^л\"   -> \"ㄹ\"\n",
"    \"{,}л\" -> \"ㄹ\"\n",
"    \"л,\"   -> \"-ㄹ\"\n",
"    \"л\"    -> \"-ㄹㄹ\"\n",
"    \"м,\"   -> \"-ㅁ\"\n",
"    \"м\"    -> \"ㅁ\"\n",
"    \"н,\"   -> \"-ㄴ\"\n",
"    \"н\"    -> \"ㄴ\"\n",
"    \"N\"    -> \"-ㅇ\"\n",
"    \"п,\"   -> \"-ㅂ\"\n"]

theorem lines14_ok : Part true lang macros vars (str "transcribe") lines14 (str "transcribe") := by
  apply piece_of
  · dsimp only [lines14]; repeat (first | exact .nil | apply Spells.cons)
  · decide +kernel

def lines15 : List String := [
"    \"п\"    -> \"ㅍ\"\n",
"    \"р\"    -> \"ㄹ\"\n",
"    \"с\"    -> \"ㅅ\"\n",
"    \"т\"    -> \"ㅌ\"\n",
"    \"ф\"    -> \"ㅍ\"\n",
"    \"х\"    -> \"ㅎ\"\n",
"    \"ц\"    -> \"ㅊ\"\n",
"    \"ч\"    -> \"ㅊ\"\n",
"    \"ја\"   -> \"ㅑ\"\n",
"    \"је\"   -> \"ㅖ\"\n"]

theorem lines15_ok : Part true lang macros vars (str "transcribe") lines15 (str "transcribe") := by
  apply piece_of
  · dsimp only [lines15]; repeat (first | exact .nil | apply Spells.cons)
  · decide +kernel

def lines16 : List String := [
"    \"ји\"   -> \"ㅣ\"\n",
"    \"јо\"   -> \"ㅛ\"\n",
"    \"ју\"   -> \"ㅠ\"\n",
"    \"ј\"    -> \"ㅣ\"\n",
"    \"а\"    -> \"ㅏ\"\n",
"    \"е\"    -> \"ㅔ\"\n",
"    \"и\"    -> \"ㅣ\"\n",
"    \"о\"    -> \"ㅗ\"\n",
"    \"у\"    -> \"ㅜ\"\n",
"\n"]

theorem lines16_ok : Part true lang macros vars (str "transcribe") lines16 (str "transcribe") := by
  apply piece_of
  · dsimp only [lines16]; repeat (first | exact .nil | apply Spells.cons)
  · decide +kernel

end Verif.Specs.Mkd
