import Verif.Specs.BelHead

/-! specs/bel.hsl, part 1, generated by tools/gen_specs.py. -/

set_option Elab.async false

namespace Verif.Specs.Bel

open Hsl

def lines1 : List String := [
"rewrite:\n",
"    \"{ж|з|ц|ч|ш}ь{@}\"    -> \"\"\n",
"    \"ьа\"                 -> \"я\"\n",
"    \"йа\"                 -> \"я\"\n",
"    \"ьі\"                 -> \"і\"\n",
"    \"йі\"                 -> \"і\"\n",
"    \"ьо\"                 -> \"ё\"\n",
"    \"йо\"                 -> \"ё\"\n",
"    \"ьу\"                 -> \"ю\"\n",
"    \"йу\"                 -> \"ю\"\n",
"    \"ьы\"                 -> \"ы\"\n"]

theorem lines1_ok : Part true lang macros vars (str "vars") lines1 (str "rewrite") := by
  apply piece_of
  · dsimp only [lines1]; repeat (first | exact .nil | apply Spells.cons)
  · decide +kernel

def lines2 : List String := [
"    \"йы\"                 -> \"ы\"\n",
"    \"ьэ\"                 -> \"е\"\n",
"    \"йэ\"                 -> \"е\"\n",
"    \"^ль\"                -> \"лі\"\n",
"    \"^мь\"                -> \"мі\"\n",
"    \"^нь\"                -> \"ні\"\n",
"    \"{л|м|н}ь{е|ю|я|ё}\"  -> \"і\"\n",
"    \"{л|м|н}ьй\"          -> \"й\"\n",
"    \"{л|м|н}ь$\"          -> \"\"\n",
"    \"{л|м|н}ь{<cs>}\"     -> \"\"\n"]

theorem lines2_ok : Part true lang macros vars (str "rewrite") lines2 (str "rewrite") := by
  apply piece_of
  · dsimp only [lines2]; repeat (first | exact .nil | apply Spells.cons)
  · decide +kernel

def lines3 : List String := [
"    \"{<cs>}'{е|й|ю|я|ё}\" -> \"і\"\n",
"    \"бб\"                 -> \"б\"\n",
"    \"гг\"                 -> \"г\"\n",
"    \"дд\"                 -> \"д\"\n",
"    \"дц\"                 -> \"ц\"\n",
"    \"дч\"                 -> \"ч\"\n",
"    \"жж\"                 -> \"ж\"\n",
"    \"зз\"                 -> \"з\"\n",
"    \"кк\"                 -> \"к\"\n",
"    \"лл\"                 -> \"л\"\n"]

theorem lines3_ok : Part true lang macros vars (str "rewrite") lines3 (str "rewrite") := by
  apply piece_of
  · dsimp only [lines3]; repeat (first | exact .nil | apply Spells.cons)
  · decide +kernel

def lines4 : List String := [
"    \"{@}мм{@}\"           -> \"м,м\"\n",
"    \"мм\"                 -> \"м\"\n",
"    \"{@}нн{@}\"           -> \"н,н\"\n",
"    \"нн\"                 -> \"н\"\n",
"    \"пп\"                 -> \"п\"\n",
"    \"рр\"                 -> \"р\"\n",
"    \"сс\"                 -> \"с\"\n",
"    \"тт\"                 -> \"т\"\n",
"    \"тц\"                 -> \"ц\"\n",
"    \"тч\"                 -> \"ч\"\n"]

theorem lines4_ok : Part true lang macros vars (str "rewrite") lines4 (str "rewrite") := by
  apply piece_of
  · dsimp only [lines4]; repeat (first | exact .nil | apply Spells.cons)
  · decide +kernel

def lines5 : List String := [
"    \"фф\"                 -> \"ф\"\n",
"    \"хх\"                 -> \"х\"\n",
"    \"цц\"                 -> \"ц\"\n",
"    \"чч\"                 -> \"ч\"\n",
"    \"шш\"                 -> \"ш\"\n",
"    \"шч\"                 -> \"ш\"\n",
"    \"{з|с|ц}ь\"           -> \"\"\n",
"    \"ій\"                 -> \"і\"\n",
"    \"{@}ь\"               -> \"\"\n",
"    \"дс$\"                -> \"ц\"\n"]

theorem lines5_ok : Part true lang macros vars (str "rewrite") lines5 (str "rewrite") := by
  apply piece_of
  · dsimp only [lines5]; repeat (first | exact .nil | apply Spells.cons)
  · decide +kernel

def lines6 : List String := [
"    \"дс{<cs>}\"           -> \"ц\"\n",
"    \"тс\"                 -> \"ц\"\n",
"    \"дз\"                 -> \"з\"\n",
"    \"тс\"                 -> \"ц\"\n",
"    \"дз\"                 -> \"з\"\n",
"    \"тз\"                 -> \"з\"\n",
"    \"нкт\"                -> \"Nт\"\n",
"    \"^в{<cs>}\"           -> \"у\"\n",
"    \"{@}в{<cs>}\"         -> \"у\"\n",
"    \"{@}в$\"              -> \"у\"\n"]

theorem lines6_ok : Part true lang macros vars (str "rewrite") lines6 (str "rewrite") := by
  apply piece_of
  · dsimp only [lines6]; repeat (first | exact .nil | apply Spells.cons)
  · decide +kernel

def lines7 : List String := [
"    \"б{<vl>}\"            -> \"п\"\n",
"    \"б$\"                 -> \"п\"\n",
"    \"в{<vl>}\"            -> \"ф\"\n",
"    \"в$\"                 -> \"ф\"\n",
"    \"г{<vl>}\"            -> \"к\"\n",
"    \"г$\"                 -> \"к\"\n",
"    \"д{<vl>}\"            -> \"т\"\n",
"    \"д$\"                 -> \"т\"\n",
"    \"ж{<vl>}\"            -> \"ш\"\n",
"    \"ж$\"                 -> \"ш\"\n"]

theorem lines7_ok : Part true lang macros vars (str "rewrite") lines7 (str "rewrite") := by
  apply piece_of
  · dsimp only [lines7]; repeat (first | exact .nil | apply Spells.cons)
  · decide +kernel

def lines8 : List String := [
"    \"з{<vl>}\"            -> \"с\"\n",
"    \"з$\"                 -> \"с\"\n",
"    \"{@}к{<vl>}\"         -> \"к,\"\n",
"    \"{@}п{<vl>}\"         -> \"п,\"\n",
"    \"{ж|з|ц|ч}O\"         -> \"о\"\n",
"    \"{ж|з|ц|ч}ю\"         -> \"у\"\n",
"    \"{ж|з|ц|ч}я\"         -> \"а\"\n",
"    \"{<cs>}е\"            -> \"э\"\n",
"    \"ша\"                 -> \"ся\"\n",
"    \"шэ\"                 -> \"се\"\n"]

theorem lines8_ok : Part true lang macros vars (str "rewrite") lines8 (str "rewrite") := by
  apply piece_of
  · dsimp only [lines8]; repeat (first | exact .nil | apply Spells.cons)
  · decide +kernel

def lines9 : List String := [
"    \"шо\"                 -> \"сё\"\n",
"    \"шу\"                 -> \"сю\"\n",
"    \"ш{і|й|ы|ь}\"         -> \"с\"\n",
"    \"ш$\"                 -> \"сі\"\n",
"    \"ш\"                  -> \"сю\"\n",
"    \"дж{@}\"              -> \"з\"\n",
"    \"дж\"                 -> \"зі\"\n",
"    \"ж{@}\"               -> \"з\"\n",
"    \"ж\"                  -> \"зу\"\n",
"    \"ч{@}\"               -> \"ц\"\n"]

theorem lines9_ok : Part true lang macros vars (str "rewrite") lines9 (str "rewrite") := by
  apply piece_of
  · dsimp only [lines9]; repeat (first | exact .nil | apply Spells.cons)
  · decide +kernel

def lines10 : List String := [
"    \"ч\"                  -> \"чі\"\n",
"    \"^л\"                 -> \"л;\"\n",
"    \"^м\"                 -> \"м;\"\n",
"    \"^н\"                 -> \"н;\"\n",
"    \"л$\"                 -> \"л,\"\n",
"    \"м$\"                 -> \"м,\"\n",
"    \"н$\"                 -> \"н,\"\n",
"    \"л{@|м,|н,|N}\"       -> \"л;\"\n",
"    \"м{@|л}\"             -> \"м;\"\n",
"    \"н{@|л}\"             -> \"н;\"\n"]

theorem lines10_ok : Part true lang macros vars (str "rewrite") lines10 (str "rewrite") := by
  apply piece_of
  · dsimp only [lines10]; repeat (first | exact .nil | apply Spells.cons)
  · decide +kernel

def lines11 : List String := [
"    \"л\"                  -> \"л,\"\n",
"    \"м\"                  -> \"м,\"\n",
"    \"н\"                  -> \"н,\"\n",
"    \",,\"                 -> \",\"\n",
"    \",;\"                 -> \"\"\n",
"    \",л,\"                -> \"л,\"\n",
"    \",м,\"                -> \"м,\"\n",
"    \",н,\"                -> \"н,\"\n",
"    \"л{м;|н;}\"           -> \"л,\"\n",
"    \";|-\"                -> \"\"\n",
"\n"]

theorem lines11_ok : Part true lang macros vars (str "rewrite") lines11 (str "rewrite") := by
  apply piece_of
  · dsimp only [lines11]; repeat (first | exact .nil | apply Spells.cons)
  · decide +kernel

def lines12 : List String := [
"transcribe:\n",
"    \"б\"    -> \"ㅂ\"\n",
"    \"в\"    -> \"ㅂ\"\n",
"    \"г\"    -> \"ㅎ\"\n",
"    \"ґ\"    -> \"ㄱ\"\n",
"    \"д\"    -> \"ㄷ\"\n",
"    \"ж\"    -> \"ㅈ\"\n",
"    \"з\"    -> \"ㅈ\"\n",
"    \"ж\"    -> \"ㅈ\"\n",
"    \"к,\"   -> \"-ㄱ\"\n",
"    \"к\"    -> \"ㅋ\"\n"]

theorem lines12_ok : Part true lang macros vars (str "rewrite") lines12 (str "transcribe") := by
  apply piece_of
  · dsimp only [lines12]; repeat (first | exact .nil | apply Spells.cons)
  · decide +kernel

def lines13 : List String := [
"    \"^л\"   -> \"ㄹ\"\n",
"    \"{,}л\" -> \"ㄹ\"\n",
"    \"л,\"   -> \"-ㄹ\"\n",
"    \"л\"    -> \"-ㄹㄹ\"\n",
"    \"м,\"   -> \"-ㅁ\"\n",
"    \"м\"    -> \"ㅁ\"\n",
"    \"н,\"   -> \"-ㄴ\"\n",
"    \"н\"    -> \"ㄴ\"\n",
"    \"N\"    -> \"-ㅇ\"\n",
"    \"п,\"   -> \"-ㅂ\"\n"]

theorem lines13_ok : Part true lang macros vars (str "transcribe") lines13 (str "transcribe") := by
  apply piece_of
  · dsimp only [lines13]; repeat (first | exact .nil | apply Spells.cons)
  · decide +kernel

def lines14 : List String := [
"    \"п\"    -> \"ㅍ\"\n",
"    \"р\"    -> \"ㄹ\"\n",
"    \"с\"    -> \"ㅅ\"\n",
"    \"т\"    -> \"ㅌ\"\n",
"    \"ф\"    -> \"ㅍ\"\n",
"    \"х\"    -> \"ㅎ\"\n",
"    \"ц\"    -> \"ㅊ\"\n",
"    \"ч\"    -> \"ㅊ\"\n",
"    \"а\"    -> \"ㅏ\"\n",
"    \"е\"    -> \"ㅖ\"\n"]

theorem lines14_ok : Part true lang macros vars (str "transcribe") lines14 (str "transcribe") := by
  apply piece_of
  · dsimp only [lines14]; repeat (first | exact .nil | apply Spells.cons)
  · decide +kernel

def lines15 : List String := [
"    \"ё\"    -> \"ㅛ\"\n",
"    \"і\"    -> \"ㅣ\"\n",
"    \"й\"    -> \"ㅣ\"\n",
"    \"о\"    -> \"ㅗ\"\n",
"    \"у\"    -> \"ㅜ\"\n",
"    \"ў\"    -> \"ㅜ\"\n",
"    \"ы\"    -> \"ㅣ\"\n",
"    \"ь\"    -> \"ㅣ\"\n",
"    \"э\"    -> \"ㅔ\"\n",
"    \"ю\"    -> \"ㅠ\"\n"]

theorem lines15_ok : Part true lang macros vars (str "transcribe") lines15 (str "transcribe") := by
  apply piece_of
  · dsimp only [lines15]; repeat (first | exact .nil | apply Spells.cons)
  · decide +kernel

def lines16 : List String := [
"    \"я\"    -> \"ㅑ\"\n",
"\n"]

theorem lines16_ok : Part true lang macros vars (str "transcribe") lines16 (str "transcribe") := by
  apply piece_of
  · dsimp only [lines16]; repeat (first | exact .nil | apply Spells.cons)
  · decide +kernel

end Verif.Specs.Bel
