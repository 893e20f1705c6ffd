import Verif.Specs.DeuHead

/-! specs/deu.hsl, part 1, generated by tools/gen_specs.py. -/

set_option Elab.async false

namespace Verif.Specs.Deu

open Hsl

def lines1 : List String := [
"rewrite:\n",
"    \"y$\"                                   -> \"i\"\n",
"    \"ä\"                                    -> \"A\"\n",
"    \"ö\"                                    -> \"O\"\n",
"    \"ü\"                                    -> \"y\"\n",
"    \"{ism|isr|raf}ael\"                     -> \"aQel\"\n",
"    \"{mich|raff|raph}ael\"                  -> \"aQel\"\n",
"    \"chloe\"                                -> \"kloe\"\n",
"    \"^ch{lor|lot|rom|ron}\"                 -> \"k\"\n",
"    \"christ\"                               -> \"krist\"\n",
"    \"{a|A|e}ue\"                            -> \"uQe\"\n"]

theorem lines1_ok : Part true lang macros vars (str "normalize") lines1 (str "rewrite") := by
  apply piece_of
  · dsimp only [lines1]; repeat (first | exact .nil | apply Spells.cons)
  · decide +kernel

def lines2 : List String := [
"    \"{a|u}el$\"                             -> \"Qel\"\n",
"    \"{man|sam}ue{l}\"                       -> \"uQe\"\n",
"    \"oe$\"                                  -> \"oQe\"\n",
"    \"ue$\"                                  -> \"u\"\n",
"    \"ae\"                                   -> \"A\"\n",
"    \"oe\"                                   -> \"O\"\n",
"    \"ue\"                                   -> \"y\"\n",
"    \"Q\"                                    -> \"\"\n",
"    \"berg$\"                                -> \"bErk\"\n",
"    \"burg$\"                                -> \"burk\"\n"]

theorem lines2_ok : Part true lang macros vars (str "rewrite") lines2 (str "rewrite") := by
  apply piece_of
  · dsimp only [lines2]; repeat (first | exact .nil | apply Spells.cons)
  · decide +kernel

def lines3 : List String := [
"    \"evelyn\"                               -> \"ewelin\"\n",
"    \"ev{@}\"                                -> \"ew\"\n",
"    \"^xaver\"                               -> \"xawer\"\n",
"    \"xx\"                                   -> \"x\"\n",
"    \"x\"                                    -> \"kS\"\n",
"    \"b$\"                                   -> \"p\"\n",
"    \"d$\"                                   -> \"t\"\n",
"    \"{@}y\"                                 -> \"i\"\n",
"    \"tzsch\"                                -> \"T\"\n",
"    \"sch\"                                  -> \"Z\"\n"]

theorem lines3_ok : Part true lang macros vars (str "rewrite") lines3 (str "rewrite") := by
  apply piece_of
  · dsimp only [lines3]; repeat (first | exact .nil | apply Spells.cons)
  · decide +kernel

def lines4 : List String := [
"    \"{@}chs\"                               -> \"kS\"\n",
"    \"{a|o|u}ch\"                            -> \"X\"\n",
"    \"ch\"                                   -> \"x\"\n",
"    \"eig$\"                                 -> \"eik\"\n",
"    \"ig$\"                                  -> \"ix\"\n",
"    \"{@|r}g$\"                              -> \"k\"\n",
"    \"{@}h{<cons>}\"                         -> \"\"\n",
"    \"{@}h$\"                                -> \"\"\n",
"    \"{@}he{im|rr}\"                         -> \"Qhe\"\n",
"    \"{a|e|o|u}he\"                          -> \"Qe\"\n"]

theorem lines4_ok : Part true lang macros vars (str "rewrite") lines4 (str "rewrite") := by
  apply piece_of
  · dsimp only [lines4]; repeat (first | exact .nil | apply Spells.cons)
  · decide +kernel

def lines5 : List String := [
"    \"err$\"                                 -> \"eU\"\n",
"    \"rr\"                                   -> \"r\"\n",
"    \"ll\"                                   -> \"l\"\n",
"    \"deus\"                                 -> \"deQus\"\n",
"    \"{mathe|mathA}us\"                      -> \"Qus\"\n",
"    \"{matthe|matthA}us\"                    -> \"Qus\"\n",
"    \"Aus$\"                                 -> \"AQus\"\n",
"    \"eeuw$\"                                -> \"eQu\"\n",
"    \"eeuws\"                                -> \"eQus\"\n",
"    \"euw$\"                                 -> \"eQu\"\n"]

theorem lines5_ok : Part true lang macros vars (str "rewrite") lines5 (str "rewrite") := by
  apply piece_of
  · dsimp only [lines5]; repeat (first | exact .nil | apply Spells.cons)
  · decide +kernel

def lines6 : List String := [
"    \"euws\"                                 -> \"eQus\"\n",
"    \"euy\"                                  -> \"oi\"\n",
"    \"eu\"                                   -> \"oi\"\n",
"    \"Au\"                                   -> \"oi\"\n",
"    \"{@}ie\"                                -> \"iQe\"\n",
"    \"{amali|emili}e\"                       -> \"Qe\"\n",
"    \"{cA|ce}cilie\"                         -> \"ciliQe\"\n",
"    \"{dan}iel\"                             -> \"iQel\"\n",
"    \"{gabr}iel\"                            -> \"iQel\"\n",
"    \"{lili}en\"                             -> \"Qen\"\n"]

theorem lines6_ok : Part true lang macros vars (str "rewrite") lines6 (str "rewrite") := by
  apply piece_of
  · dsimp only [lines6]; repeat (first | exact .nil | apply Spells.cons)
  · decide +kernel

def lines7 : List String := [
"    \"{belgi|itali}en\"                      -> \"Qen\"\n",
"    \"i{etta|ette}\"                         -> \"iQ\"\n",
"    \"{tri}est\"                             -> \"Qest\"\n",
"    \"ie\"                                   -> \"i\"\n",
"    \"Q\"                                    -> \"\"\n",
"    \"vi{ctor|ktor|ncen|nzen}\"              -> \"wi\"\n",
"    \"sven\"                                 -> \"swen\"\n",
"    \"vlad\"                                 -> \"wlad\"\n",
"    \"ei\"                                   -> \"ai\"\n",
"    \"nn\"                                   -> \"n\"\n"]

theorem lines7_ok : Part true lang macros vars (str "rewrite") lines7 (str "rewrite") := by
  apply piece_of
  · dsimp only [lines7]; repeat (first | exact .nil | apply Spells.cons)
  · decide +kernel

def lines8 : List String := [
"    \"{r|l}mm{@}\"                           -> \"mQm\"\n",
"    \"mm\"                                   -> \"m\"\n",
"    \"{r|l|n|s}tt{@}\"                       -> \"tQt\"\n",
"    \"tt\"                                   -> \"t\"\n",
"    \"{r|l|m|s}pp{@}\"                       -> \"pQp\"\n",
"    \"pp\"                                   -> \"p\"\n",
"    \"Q\"                                    -> \"\"\n",
"    \"aa\"                                   -> \"a\"\n",
"    \"ee\"                                   -> \"e\"\n",
"    \"ph\"                                   -> \"f\"\n"]

theorem lines8_ok : Part true lang macros vars (str "rewrite") lines8 (str "rewrite") := by
  apply piece_of
  · dsimp only [lines8]; repeat (first | exact .nil | apply Spells.cons)
  · decide +kernel

def lines9 : List String := [
"    \"ff\"                                   -> \"f\"\n",
"    \"pf\"                                   -> \"f\"\n",
"    \"th\"                                   -> \"t\"\n",
"    \"kh\"                                   -> \"k\"\n",
"    \"{r|l|n}dt{@|r}\"                       -> \"tt\"\n",
"    \"dt\"                                   -> \"t\"\n",
"    \"{r|l|n}dd{@|r}\"                       -> \"td\"\n",
"    \"dd\"                                   -> \"d\"\n",
"    \"{r}gg{@|l|r}\"                         -> \"kg\"\n",
"    \"gg\"                                   -> \"g\"\n"]

theorem lines9_ok : Part true lang macros vars (str "rewrite") lines9 (str "rewrite") := by
  apply piece_of
  · dsimp only [lines9]; repeat (first | exact .nil | apply Spells.cons)
  · decide +kernel

def lines10 : List String := [
"    \"bb\"                                   -> \"b\"\n",
"    \"ck\"                                   -> \"k\"\n",
"    \"c{A|e|i|y}\"                           -> \"C\"\n",
"    \"c\"                                    -> \"k\"\n",
"    \"{@|l|n|r|s}kk{@|l|r}\"                 -> \"kQk\"\n",
"    \"kk\"                                   -> \"k\"\n",
"    \"Q\"                                    -> \"\"\n",
"    \"cques$\"                               -> \"k\"\n",
"    \"cque$\"                                -> \"k\"\n",
"    \"ques$\"                                -> \"k\"\n"]

theorem lines10_ok : Part true lang macros vars (str "rewrite") lines10 (str "rewrite") := by
  apply piece_of
  · dsimp only [lines10]; repeat (first | exact .nil | apply Spells.cons)
  · decide +kernel

def lines11 : List String := [
"    \"que$\"                                 -> \"k\"\n",
"    \"quet$\"                                -> \"ke\"\n",
"    \"qu{@}\"                                -> \"kw\"\n",
"    \"q\"                                    -> \"k\"\n",
"    \"C\"                                    -> \"c\"\n",
"    \"tz\"                                   -> \"z\"\n",
"    \"zz\"                                   -> \"z\"\n",
"    \"ng{@|l}\"                              -> \"Ng\"\n",
"    \"ng\"                                   -> \"N\"\n",
"    \"nk\"                                   -> \"Nk\"\n"]

theorem lines11_ok : Part true lang macros vars (str "rewrite") lines11 (str "rewrite") := by
  apply piece_of
  · dsimp only [lines11]; repeat (first | exact .nil | apply Spells.cons)
  · decide +kernel

def lines12 : List String := [
"    \"ss\"                                   -> \"S\"\n",
"    \"ß\"                                    -> \"S\"\n",
"    \"{@}s{p|t|k}\"                          -> \"S\"\n",
"    \"ts\"                                   -> \"c\"\n",
"    \"ds$\"                                  -> \"c\"\n",
"    \"ds{<cons>}\"                           -> \"c\"\n",
"    \"s$\"                                   -> \"S\"\n",
"    \"s{p@|t@|k@}\"                          -> \"Z\"\n",
"    \"s{@}\"                                 -> \"J\"\n",
"    \"tZ\"                                   -> \"T\"\n"]

theorem lines12_ok : Part true lang macros vars (str "rewrite") lines12 (str "rewrite") := by
  apply piece_of
  · dsimp only [lines12]; repeat (first | exact .nil | apply Spells.cons)
  · decide +kernel

def lines13 : List String := [
"    \"Z{@}\"                                 -> \"Sj\"\n",
"    \"Z$\"                                   -> \"Sju\"\n",
"    \"Z{<cons>}\"                            -> \"Sju\"\n",
"    \"T{@}\"                                 -> \"c\"\n",
"    \"T$\"                                   -> \"cj\"\n",
"    \"T{<cons>}\"                            -> \"cj\"\n",
"    \"x{<cons>}\"                            -> \"xi\"\n",
"    \"x$\"                                   -> \"xi\"\n",
"    \"er$\"                                  -> \"U\"\n",
"    \"{@}r$\"                                -> \"U\"\n"]

theorem lines13_ok : Part true lang macros vars (str "rewrite") lines13 (str "rewrite") := by
  apply piece_of
  · dsimp only [lines13]; repeat (first | exact .nil | apply Spells.cons)
  · decide +kernel

def lines14 : List String := [
"    \"b{c|d|f|g|h|j|J|k|m|n|p|s|S|t|v|w|z}\" -> \"p\"\n",
"    \"d{b|c|f|g|h|j|J|k|l|m|n|p|s|S|v|w|z}\" -> \"t\"\n",
"    \"g{b|c|d|f|h|j|J|k|m|n|p|s|S|t|v|w|z}\" -> \"k\"\n",
"\n"]

theorem lines14_ok : Part true lang macros vars (str "rewrite") lines14 (str "rewrite") := by
  apply piece_of
  · dsimp only [lines14]; repeat (first | exact .nil | apply Spells.cons)
  · decide +kernel

def lines15 : List String := [
"transcribe:\n",
"    \"^U$\"           -> \"ㅔㅓ\"\n",
"    \"{^<cons>}U$\"   -> \"ㅔㅓ\"\n",
"    \"X\"             -> \"ㅎ\"\n",
"    \"x\"             -> \"ㅎ\"\n",
"    \"b\"             -> \"ㅂ\"\n",
"    \"c\"             -> \"ㅊ\"\n",
"    \"d\"             -> \"ㄷ\"\n",
"    \"f\"             -> \"ㅍ\"\n",
"    \"g\"             -> \"ㄱ\"\n",
"    \"{ai|oi|au}k\"   -> \"ㅋ\"\n"]

theorem lines15_ok : Part true lang macros vars (str "rewrite") lines15 (str "transcribe") := by
  apply piece_of
  · dsimp only [lines15]; repeat (first | exact .nil | apply Spells.cons)
  · decide +kernel

def lines16 : List String := [
"    \"{@}k{c|s|S|t}\" -> \"-ㄱ\"\n",
"    \"k\"             -> \"ㅋ\"\n",
"    \"{@}l{m@|n@}\"   -> \"-ㄹ\"\n",
"    \"{@}l{@|m|n}\"   -> \"-ㄹㄹ\"\n",
"    \"^l\"            -> \"ㄹ\"\n",
"    \"l{@}\"          -> \"-ㄹㄹ\"\n",
"    \"l\"             -> \"-ㄹ\"\n",
"    \"m{@}\"          -> \"ㅁ\"\n",
"    \"m\"             -> \"-ㅁ\"\n",
"    \"n{@}\"          -> \"ㄴ\"\n"]

theorem lines16_ok : Part true lang macros vars (str "transcribe") lines16 (str "transcribe") := by
  apply piece_of
  · dsimp only [lines16]; repeat (first | exact .nil | apply Spells.cons)
  · decide +kernel

end Verif.Specs.Deu
