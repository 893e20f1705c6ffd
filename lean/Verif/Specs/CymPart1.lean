import Verif.Specs.CymHead

/-! specs/cym.hsl, part 1, generated by tools/gen_specs.py. -/

set_option Elab.async false

namespace Verif.Specs.Cym

open Hsl

def lines1 : List String := [
"rewrite:\n",
"    \"afon\"                  -> \"afon-\"\n",
"    \"banc\"                  -> \"baNc\"\n",
"    \"^ban\"                  -> \"ban-\"\n",
"    \"^fan\"                  -> \"fan-\"\n",
"    \"^man\"                  -> \"man-\"\n",
"    \"blaen\"                 -> \"blaen-\"\n",
"    \"flaen\"                 -> \"flaen-\"\n",
"    \"mlaen\"                 -> \"mlaen-\"\n",
"    \"bron\"                  -> \"bron-\"\n",
"    \"fron\"                  -> \"fron-\"\n"]

theorem lines1_ok : Part false lang macros vars (str "normalize") lines1 (str "rewrite") := by
  apply piece_of
  · dsimp only [lines1]; repeat (first | exact .nil | apply Spells.cons)
  · decide +kernel

def lines2 : List String := [
"    \"mron\"                  -> \"mron-\"\n",
"    \"bryn\"                  -> \"bryn-\"\n",
"    \"fryn\"                  -> \"fryn-\"\n",
"    \"mryn\"                  -> \"mryn-\"\n",
"    \"glan\"                  -> \"glan-\"\n",
"    \"^lan\"                  -> \"lan-\"\n",
"    \"glyn\"                  -> \"glyn-\"\n",
"    \"gwen\"                  -> \"gwen-\"\n",
"    \"gwyn\"                  -> \"gwyn-\"\n",
"    \"^lyn\"                  -> \"lyn-\"\n"]

theorem lines2_ok : Part false lang macros vars (str "rewrite") lines2 (str "rewrite") := by
  apply piece_of
  · dsimp only [lines2]; repeat (first | exact .nil | apply Spells.cons)
  · decide +kernel

def lines3 : List String := [
"    \"llain\"                 -> \"llain-\"\n",
"    \"llan\"                  -> \"llan-\"\n",
"    \"llyn\"                  -> \"llyn-\"\n",
"    \"maen\"                  -> \"maen-\"\n",
"    \"faen\"                  -> \"faen-\"\n",
"    \"onnen\"                 -> \"onnen-\"\n",
"    \"^pen\"                  -> \"pen-\"\n",
"    \"^ben\"                  -> \"ben-\"\n",
"    \"^phen\"                 -> \"phen-\"\n",
"    \"rhon\"                  -> \"rhon-\"\n"]

theorem lines3_ok : Part false lang macros vars (str "rewrite") lines3 (str "rewrite") := by
  apply piece_of
  · dsimp only [lines3]; repeat (first | exact .nil | apply Spells.cons)
  · decide +kernel

def lines4 : List String := [
"    \"rhyn\"                  -> \"rhyn-\"\n",
"    \"waun\"                  -> \"waun-\"\n",
"    \"{<cs>}ng$\"             -> \"N\"\n",
"    \"{<cs>}ng\"              -> \"n-g\"\n",
"    \"^dy$\"                  -> \"dQ\"\n",
"    \"^fy$\"                  -> \"fQ\"\n",
"    \"^y$\"                   -> \"Q\"\n",
"    \"^ym$\"                  -> \"Qm\"\n",
"    \"^yn$\"                  -> \"Qn\"\n",
"    \"^yng$\"                 -> \"Qng\"\n"]

theorem lines4_ok : Part false lang macros vars (str "rewrite") lines4 (str "rewrite") := by
  apply piece_of
  · dsimp only [lines4]; repeat (first | exact .nil | apply Spells.cons)
  · decide +kernel

def lines5 : List String := [
"    \"^yr$\"                  -> \"Qr\"\n",
"    \"m mh\"                  -> \"m h\"\n",
"    \"m-mh\"                  -> \"mh\"\n",
"    \"{@} mh\"                -> \"m h\"\n",
"    \"n nh\"                  -> \"n h\"\n",
"    \"n-nh\"                  -> \"nh\"\n",
"    \"{@} nh\"                -> \"n h\"\n",
"    \"ng ng\"                 -> \"ng \"\n",
"    \"ng-ng\"                 -> \"ng\"\n",
"    \"{@} ng\"                -> \"ng \"\n"]

theorem lines5_ok : Part false lang macros vars (str "rewrite") lines5 (str "rewrite") := by
  apply piece_of
  · dsimp only [lines5]; repeat (first | exact .nil | apply Spells.cons)
  · decide +kernel

def lines6 : List String := [
"    \"{c|C|g|h|@}win$\"       -> \"Win\"\n",
"    \"{<cs>}win$\"            -> \"YWin\"\n",
"    \"{c|C|g|h|@}wyn$\"       -> \"Win\"\n",
"    \"{<cs>}wyn$\"            -> \"YWin\"\n",
"    \"ch\"                    -> \"C\"\n",
"    \"dd\"                    -> \"D\"\n",
"    \"ff\"                    -> \"F\"\n",
"    \"ll\"                    -> \"L\"\n",
"    \"th\"                    -> \"T\"\n",
"    \"ll\"                    -> \"L\"\n"]

theorem lines6_ok : Part false lang macros vars (str "rewrite") lines6 (str "rewrite") := by
  apply piece_of
  · dsimp only [lines6]; repeat (first | exact .nil | apply Spells.cons)
  · decide +kernel

def lines7 : List String := [
"    \"ng\"                    -> \"N\"\n",
"    \"k\"                     -> \"c\"\n",
"    \"qu\"                    -> \"cw\"\n",
"    \"q\"                     -> \"c\"\n",
"    \"n{c|C}\"                -> \"N\"\n",
"    \"ph\"                    -> \"F\"\n",
"    \"v\"                     -> \"f\"\n",
"    \"x\"                     -> \"s\"\n",
"    \"z\"                     -> \"s\"\n",
"    \"^rh\"                   -> \"hr\"\n"]

theorem lines7_ok : Part false lang macros vars (str "rewrite") lines7 (str "rewrite") := by
  apply piece_of
  · dsimp only [lines7]; repeat (first | exact .nil | apply Spells.cons)
  · decide +kernel

def lines8 : List String := [
"    \"{c|C|F|h|p|s|t|T}rh\"   -> \"r\"\n",
"    \"{<cs>}rh\"              -> \"hr\"\n",
"    \"{c|C|F|h|p|s|t|T}L\"    -> \"l\"\n",
"    \"L\"                     -> \"hl\"\n",
"    \"^w{<cs>}\"              -> \"U\"\n",
"    \"{<cs>}w$\"              -> \"U\"\n",
"    \"{<cs>}w{<cs>}\"         -> \"U\"\n",
"    \"{c|C|g|@}wi\"           -> \"Wi\"\n",
"    \"{c|C|g|@}wy\"           -> \"Wi\"\n",
"    \"wi\"                    -> \"Ui\"\n"]

theorem lines8_ok : Part false lang macros vars (str "rewrite") lines8 (str "rewrite") := by
  apply piece_of
  · dsimp only [lines8]; repeat (first | exact .nil | apply Spells.cons)
  · decide +kernel

def lines9 : List String := [
"    \"wy\"                    -> \"Ui\"\n",
"    \"^w{@}\"                 -> \"W\"\n",
"    \"{c|C|g|h|@}w{@}\"       -> \"W\"\n",
"    \"{<cs>}w{@}\"            -> \"YW\"\n",
"    \"yw$\"                   -> \"iw\"\n",
"    \"yw{<cs>}\"              -> \"iw\"\n",
"    \"w\"                     -> \"U\"\n",
"    \"-\"                     -> \"\"\n",
"    \"mm\"                    -> \"m\"\n",
"    \"nn\"                    -> \"n\"\n"]

theorem lines9_ok : Part false lang macros vars (str "rewrite") lines9 (str "rewrite") := by
  apply piece_of
  · dsimp only [lines9]; repeat (first | exact .nil | apply Spells.cons)
  · decide +kernel

def lines10 : List String := [
"    \"^l\"                    -> \"l;\"\n",
"    \"^mh\"                   -> \"m,h\"\n",
"    \"^m\"                    -> \"m;\"\n",
"    \"^nh\"                   -> \"n,h\"\n",
"    \"^n\"                    -> \"n;\"\n",
"    \"l$\"                    -> \"l,\"\n",
"    \"m$\"                    -> \"m,\"\n",
"    \"n$\"                    -> \"n,\"\n",
"    \"l{@|m,|n,|N}\"          -> \"l;\"\n",
"    \"{,}l\"                  -> \"l;\"\n"]

theorem lines10_ok : Part false lang macros vars (str "rewrite") lines10 (str "rewrite") := by
  apply piece_of
  · dsimp only [lines10]; repeat (first | exact .nil | apply Spells.cons)
  · decide +kernel

def lines11 : List String := [
"    \"m{@}\"                  -> \"m;\"\n",
"    \"n{@}\"                  -> \"n;\"\n",
"    \"l\"                     -> \"l,\"\n",
"    \"m\"                     -> \"m,\"\n",
"    \"n\"                     -> \"n,\"\n",
"    \"N\"                     -> \"N,\"\n",
"    \",,\"                    -> \",\"\n",
"    \",;\"                    -> \"\"\n",
"    \",l,\"                   -> \"l,\"\n",
"    \",m,\"                   -> \"m,\"\n"]

theorem lines11_ok : Part false lang macros vars (str "rewrite") lines11 (str "rewrite") := by
  apply piece_of
  · dsimp only [lines11]; repeat (first | exact .nil | apply Spells.cons)
  · decide +kernel

def lines12 : List String := [
"    \",n,\"                   -> \"n,\"\n",
"    \",N,\"                   -> \"N,\"\n",
"    \"l{m;|n;}\"              -> \"l,\"\n",
"    \";\"                     -> \"\"\n",
"    \",Y\"                    -> \",\"\n",
"    \"^i{@}\"                 -> \"J\"\n",
"    \"{@|s}i{@}\"             -> \"J\"\n",
"    \"ŵ\"                     -> \"U\"\n",
"    \"î\"                     -> \"i\"\n",
"    \"ï\"                     -> \"i\"\n"]

theorem lines12_ok : Part false lang macros vars (str "rewrite") lines12 (str "rewrite") := by
  apply piece_of
  · dsimp only [lines12]; repeat (first | exact .nil | apply Spells.cons)
  · decide +kernel

def lines13 : List String := [
"    \"ŷ\"                     -> \"i\"\n",
"    \"u\"                     -> \"i\"\n",
"    \"ae\"                    -> \"ai\"\n",
"    \"oe\"                    -> \"oi\"\n",
"    \"{@}y$\"                 -> \"i\"\n",
"    \"{@}y{<cs>|,}\"          -> \"i\"\n",
"    \"bb\"                    -> \"b\"\n",
"    \"cc\"                    -> \"c\"\n",
"    \"gg\"                    -> \"g\"\n",
"    \"hh\"                    -> \"h\"\n"]

theorem lines13_ok : Part false lang macros vars (str "rewrite") lines13 (str "rewrite") := by
  apply piece_of
  · dsimp only [lines13]; repeat (first | exact .nil | apply Spells.cons)
  · decide +kernel

def lines14 : List String := [
"    \"jj\"                    -> \"j\"\n",
"    \"pp\"                    -> \"p\"\n",
"    \"rr\"                    -> \"r\"\n",
"    \"ss\"                    -> \"s\"\n",
"    \"tt\"                    -> \"t\"\n",
"    \"{<cs>|,}y{(<cs>|,)*$}\" -> \"i\"\n",
"    \"y\"                     -> \"Q\"\n",
"    \"{@}a\"                  -> \"-a\"\n",
"    \"{@}e\"                  -> \"-e\"\n",
"    \"{i|Q}i\"                -> \"-i\"\n"]

theorem lines14_ok : Part false lang macros vars (str "rewrite") lines14 (str "rewrite") := by
  apply piece_of
  · dsimp only [lines14]; repeat (first | exact .nil | apply Spells.cons)
  · decide +kernel

def lines15 : List String := [
"    \"{@}o\"                  -> \"-o\"\n",
"    \"{^@}c$\"                -> \"c,\"\n",
"    \"{(<cs>|,)(@)}c$\"       -> \"c,\"\n",
"    \"{@}c{<ob>}\"            -> \"c,\"\n",
"    \"{^@}t$\"                -> \"t,\"\n",
"    \"{(<cs>|,)(@)}t$\"       -> \"t,\"\n",
"    \"{@}t{<ob>}\"            -> \"t,\"\n",
"    \"{^@}p$\"                -> \"p,\"\n",
"    \"{(<cs>|,)(@)}p$\"       -> \"p,\"\n",
"    \"{@}p{<ob>}\"            -> \"p,\"\n",
"\n"]

theorem lines15_ok : Part false lang macros vars (str "rewrite") lines15 (str "rewrite") := by
  apply piece_of
  · dsimp only [lines15]; repeat (first | exact .nil | apply Spells.cons)
  · decide +kernel

def lines16 : List String := [
"transcribe:\n",
"    \"b\"    -> \"ㅂ\"\n",
"    \"c,\"   -> \"-ㄱ\"\n",
"    \"c\"    -> \"ㅋ\"\n",
"    \"C\"    -> \"ㅎ\"\n",
"    \"d\"    -> \"ㄷ\"\n",
"    \"D\"    -> \"ㄷ\"\n",
"    \"f\"    -> \"ㅂ\"\n",
"    \"F\"    -> \"ㅍ\"\n",
"    \"g\"    -> \"ㄱ\"\n",
"    \"h\"    -> \"ㅎ\"\n"]

theorem lines16_ok : Part false lang macros vars (str "rewrite") lines16 (str "transcribe") := by
  apply piece_of
  · dsimp only [lines16]; repeat (first | exact .nil | apply Spells.cons)
  · decide +kernel

end Verif.Specs.Cym
