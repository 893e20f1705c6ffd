import Verif.Specs.PorHead

/-! specs/por.hsl, part 1, generated by tools/gen_specs.py. -/

set_option Elab.async false

namespace Verif.Specs.Por

open Hsl

def lines1 : List String := [
"rewrite:\n",
"    \"ã\"                                  -> \"A~\"\n",
"    \"á\"                                  -> \"A\"\n",
"    \"â\"                                  -> \"A\"\n",
"    \"sç\"                                 -> \"S\"\n",
"    \"ç\"                                  -> \"S\"\n",
"    \"é\"                                  -> \"E\"\n",
"    \"ê\"                                  -> \"E\"\n",
"    \"õ\"                                  -> \"O~\"\n",
"    \"ó\"                                  -> \"O\"\n",
"    \"ô\"                                  -> \"O\"\n"]

theorem lines1_ok : Part true lang macros vars (str "normalize") lines1 (str "rewrite") := by
  apply piece_of
  · dsimp only [lines1]; repeat (first | exact .nil | apply Spells.cons)
  · decide +kernel

def lines2 : List String := [
"    \"dumont$\"                            -> \"dumon\"\n",
"    \"^eduar\"                             -> \"Eduar\"\n",
"    \"^eldorado\"                          -> \"Eldorado\"\n",
"    \"^joA~\"                              -> \"juA~\"\n",
"    \"^mirra$\"                            -> \"mira\"\n",
"    \"bb\"                                 -> \"b\"\n",
"    \"cc\"                                 -> \"c\"\n",
"    \"dd\"                                 -> \"d\"\n",
"    \"ff\"                                 -> \"f\"\n",
"    \"gg\"                                 -> \"g\"\n"]

theorem lines2_ok : Part true lang macros vars (str "rewrite") lines2 (str "rewrite") := by
  apply piece_of
  · dsimp only [lines2]; repeat (first | exact .nil | apply Spells.cons)
  · decide +kernel

def lines3 : List String := [
"    \"hh\"                                 -> \"h\"\n",
"    \"jj\"                                 -> \"j\"\n",
"    \"kk\"                                 -> \"k\"\n",
"    \"ll\"                                 -> \"l\"\n",
"    \"mm\"                                 -> \"m\"\n",
"    \"nn\"                                 -> \"n\"\n",
"    \"pp\"                                 -> \"p\"\n",
"    \"qq\"                                 -> \"q\"\n",
"    \"tt\"                                 -> \"t\"\n",
"    \"vv\"                                 -> \"v\"\n"]

theorem lines3_ok : Part true lang macros vars (str "rewrite") lines3 (str "rewrite") := by
  apply piece_of
  · dsimp only [lines3]; repeat (first | exact .nil | apply Spells.cons)
  · decide +kernel

def lines4 : List String := [
"    \"ww\"                                 -> \"w\"\n",
"    \"xx\"                                 -> \"x\"\n",
"    \"zz\"                                 -> \"z\"\n",
"    \"ch\"                                 -> \"C\"\n",
"    \"lh\"                                 -> \"L\"\n",
"    \"nh\"                                 -> \"N\"\n",
"    \"^ex{@}\"                             -> \"ez\"\n",
"    \"^hex{@}\"                            -> \"ez\"\n",
"    \"~e\"                                 -> \"~i\"\n",
"    \"A~o\"                                -> \"A~\"\n"]

theorem lines4_ok : Part true lang macros vars (str "rewrite") lines4 (str "rewrite") := by
  apply piece_of
  · dsimp only [lines4]; repeat (first | exact .nil | apply Spells.cons)
  · decide +kernel

def lines5 : List String := [
"    \"c{k|q}\"                             -> \"\"\n",
"    \"sc{e|E|i}\"                          -> \"S\"\n",
"    \"ssc{e|E|i}\"                         -> \"S\"\n",
"    \"xc{e|E|i}\"                          -> \"S\"\n",
"    \"xs\"                                 -> \"S\"\n",
"    \"xss\"                                -> \"S\"\n",
"    \"ss\"                                 -> \"S\"\n",
"    \"c{e|E|i}\"                           -> \"S\"\n",
"    \"c\"                                  -> \"k\"\n",
"    \"x{@}\"                               -> \"C\"\n"]

theorem lines5_ok : Part true lang macros vars (str "rewrite") lines5 (str "rewrite") := by
  apply piece_of
  · dsimp only [lines5]; repeat (first | exact .nil | apply Spells.cons)
  · decide +kernel

def lines6 : List String := [
"    \"x\"                                  -> \"S\"\n",
"    \"g{e|E|i}\"                           -> \"j\"\n",
"    \"{g|q}u{e|E|i}\"                      -> \"\"\n",
"    \"^e{(a|<cs>a|<cs><cs>a)$}\"           -> \"E\"\n",
"    \"^e{(<cs><cs><cs>a)$}\"               -> \"E\"\n",
"    \"^e{(am|<cs>am|<cs><cs>am)$}\"        -> \"E\"\n",
"    \"^e{(<cs><cs><cs>am)$}\"              -> \"E\"\n",
"    \"^e{(ans|<cs>ans|<cs><cs>ans)$}\"     -> \"E\"\n",
"    \"^e{(<cs><cs><cs>ans)$}\"             -> \"E\"\n",
"    \"^e{(as|<cs>as|<cs><cs>as)$}\"        -> \"E\"\n"]

theorem lines6_ok : Part true lang macros vars (str "rewrite") lines6 (str "rewrite") := by
  apply piece_of
  · dsimp only [lines6]; repeat (first | exact .nil | apply Spells.cons)
  · decide +kernel

def lines7 : List String := [
"    \"^e{(<cs><cs><cs>as)$}\"              -> \"E\"\n",
"    \"^e{(o|<cs>o|<cs><cs>o)$}\"           -> \"E\"\n",
"    \"^e{(<cs><cs><cs>o)$}\"               -> \"E\"\n",
"    \"^e{(om|<cs>om|<cs><cs>om)$}\"        -> \"E\"\n",
"    \"^e{(<cs><cs><cs>om)$}\"              -> \"E\"\n",
"    \"^e{(ons|<cs>ons|<cs><cs>ons)$}\"     -> \"E\"\n",
"    \"^e{(<cs><cs><cs>ons)$}\"             -> \"E\"\n",
"    \"^e{(os|<cs>os|<cs><cs>os)$}\"        -> \"E\"\n",
"    \"^e{(<cs><cs><cs>os)$}\"              -> \"E\"\n",
"    \"^e{(e|<cs>e|<cs><cs>e)$}\"           -> \"E\"\n"]

theorem lines7_ok : Part true lang macros vars (str "rewrite") lines7 (str "rewrite") := by
  apply piece_of
  · dsimp only [lines7]; repeat (first | exact .nil | apply Spells.cons)
  · decide +kernel

def lines8 : List String := [
"    \"^e{(<cs><cs><cs>e)$}\"               -> \"E\"\n",
"    \"^e{(em|<cs>em|<cs><cs>em)$}\"        -> \"E\"\n",
"    \"^e{(<cs><cs><cs>em)$}\"              -> \"E\"\n",
"    \"^e{(ens|<cs>ens|<cs><cs>ens)$}\"     -> \"E\"\n",
"    \"^e{(<cs><cs><cs>ens)$}\"             -> \"E\"\n",
"    \"^e{(es|<cs>es|<cs><cs>es)$}\"        -> \"E\"\n",
"    \"^e{(<cs><cs><cs>es)$}\"              -> \"E\"\n",
"    \"^e\"                                 -> \"i\"\n",
"    \"{C|L|N}e$\"                          -> \"i\"\n",
"    \"e$\"                                 -> \"Q\"\n"]

theorem lines8_ok : Part true lang macros vars (str "rewrite") lines8 (str "rewrite") := by
  apply piece_of
  · dsimp only [lines8]; repeat (first | exact .nil | apply Spells.cons)
  · decide +kernel

def lines9 : List String := [
"    \"o$\"                                 -> \"u\"\n",
"    \"os$\"                                -> \"us\"\n",
"    \"{p|b|m|f|v|g|q}es$\"                 -> \"Es\"\n",
"    \"{C|L|N}es$\"                         -> \"is\"\n",
"    \"es$\"                                -> \"Qs\"\n",
"    \"q\"                                  -> \"k\"\n",
"    \"ou\"                                 -> \"o\"\n",
"    \"A\"                                  -> \"a\"\n",
"    \"E\"                                  -> \"e\"\n",
"    \"I\"                                  -> \"i\"\n"]

theorem lines9_ok : Part true lang macros vars (str "rewrite") lines9 (str "rewrite") := by
  apply piece_of
  · dsimp only [lines9]; repeat (first | exact .nil | apply Spells.cons)
  · decide +kernel

def lines10 : List String := [
"    \"O\"                                  -> \"o\"\n",
"    \"U\"                                  -> \"u\"\n",
"    \"aa\"                                 -> \"a\"\n",
"    \"ee\"                                 -> \"e\"\n",
"    \"oo\"                                 -> \"o\"\n",
"    \"uu\"                                 -> \"u\"\n",
"    \"yy\"                                 -> \"iy\"\n",
"    \"^y{@}\"                              -> \"Y\"\n",
"    \"{@}y{@}\"                            -> \"Y\"\n",
"    \"y\"                                  -> \"i\"\n"]

theorem lines10_ok : Part true lang macros vars (str "rewrite") lines10 (str "rewrite") := by
  apply piece_of
  · dsimp only [lines10]; repeat (first | exact .nil | apply Spells.cons)
  · decide +kernel

def lines11 : List String := [
"    \"ii\"                                 -> \"i\"\n",
"    \"m$\"                                 -> \"~\"\n",
"    \"n$\"                                 -> \"~\"\n",
"    \"ns$\"                                -> \"~s\"\n",
"    \"n{g|k}\"                             -> \"~\"\n",
"    \"^r\"                                 -> \"R\"\n",
"    \"{n|l|s}r\"                           -> \"R\"\n",
"    \"rr\"                                 -> \"R\"\n",
"    \"^s\"                                 -> \"S\"\n",
"    \"{<vl>}s\"                            -> \"S\"\n"]

theorem lines11_ok : Part true lang macros vars (str "rewrite") lines11 (str "rewrite") := by
  apply piece_of
  · dsimp only [lines11]; repeat (first | exact .nil | apply Spells.cons)
  · decide +kernel

def lines12 : List String := [
"    \"{@}s{@}\"                            -> \"z\"\n",
"    \"s{@}\"                               -> \"S\"\n",
"    \"s{<vl>}\"                            -> \"S\"\n",
"    \"s$\"                                 -> \"S\"\n",
"    \"s\"                                  -> \"Z\"\n",
"    \"z{@}\"                               -> \"Z\"\n",
"    \"z{<vl>}\"                            -> \"S\"\n",
"    \"z$\"                                 -> \"S\"\n",
"    \"Z\"                                  -> \"z\"\n",
"    \"k{<son>}\"                           -> \"F\"\n"]

theorem lines12_ok : Part true lang macros vars (str "rewrite") lines12 (str "rewrite") := by
  apply piece_of
  · dsimp only [lines12]; repeat (first | exact .nil | apply Spells.cons)
  · decide +kernel

def lines13 : List String := [
"    \"{@}k{<cs>}\"                         -> \"k,\"\n",
"    \"F\"                                  -> \"k\"\n",
"    \"C{@}\"                               -> \"SY\"\n",
"    \"C\"                                  -> \"Si\"\n",
"    \"N{@}\"                               -> \"nY\"\n",
"    \"N\"                                  -> \"n\"\n",
"    \"L{@}\"                               -> \"lY\"\n",
"    \"L\"                                  -> \"l\"\n",
"    \"^l\"                                 -> \"l;\"\n",
"    \"^m\"                                 -> \"m;\"\n"]

theorem lines13_ok : Part true lang macros vars (str "rewrite") lines13 (str "rewrite") := by
  apply piece_of
  · dsimp only [lines13]; repeat (first | exact .nil | apply Spells.cons)
  · decide +kernel

def lines14 : List String := [
"    \"^n\"                                 -> \"n;\"\n",
"    \"l$\"                                 -> \"l,\"\n",
"    \"m$\"                                 -> \"m,\"\n",
"    \"n$\"                                 -> \"n,\"\n",
"    \"l{@|Y|m,|n,}\"                       -> \"l;\"\n",
"    \"{,}l\"                               -> \"l;\"\n",
"    \"m{@}\"                               -> \"m;\"\n",
"    \"n{@|Y}\"                             -> \"n;\"\n",
"    \"l\"                                  -> \"l,\"\n",
"    \"m\"                                  -> \"m,\"\n"]

theorem lines14_ok : Part true lang macros vars (str "rewrite") lines14 (str "rewrite") := by
  apply piece_of
  · dsimp only [lines14]; repeat (first | exact .nil | apply Spells.cons)
  · decide +kernel

def lines15 : List String := [
"    \"n\"                                  -> \"n,\"\n",
"    \"~\"                                  -> \"~,\"\n",
"    \",,\"                                 -> \",\"\n",
"    \",;\"                                 -> \"\"\n",
"    \",l,\"                                -> \"l,\"\n",
"    \",m,\"                                -> \"m,\"\n",
"    \",n,\"                                -> \"n,\"\n",
"    \"l{m;|n;}\"                           -> \"l,\"\n",
"    \";\"                                  -> \"\"\n",
"    \"^w\"                                 -> \"W\"\n"]

theorem lines15_ok : Part true lang macros vars (str "rewrite") lines15 (str "rewrite") := by
  apply piece_of
  · dsimp only [lines15]; repeat (first | exact .nil | apply Spells.cons)
  · decide +kernel

def lines16 : List String := [
"    \"{@|g|k}w\"                           -> \"W\"\n",
"    \"w\"                                  -> \"QW\"\n",
"\n"]

theorem lines16_ok : Part true lang macros vars (str "rewrite") lines16 (str "rewrite") := by
  apply piece_of
  · dsimp only [lines16]; repeat (first | exact .nil | apply Spells.cons)
  · decide +kernel

end Verif.Specs.Por
