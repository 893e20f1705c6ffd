import Verif.Specs.IslHead

/-! specs/isl.hsl, part 1, generated by tools/gen_specs.py. -/

set_option Elab.async false

namespace Verif.Specs.Isl

open Hsl

def lines1 : List String := [
"rewrite:\n",
"    \"ð\"                                -> \"D\"\n",
"    \"þ\"                                -> \"T\"\n",
"    \"á\"                                -> \"A\"\n",
"    \"é\"                                -> \"E\"\n",
"    \"í\"                                -> \"I\"\n",
"    \"ó\"                                -> \"O\"\n",
"    \"ú\"                                -> \"U\"\n",
"    \"æ\"                                -> \"Y\"\n",
"    \"ö\"                                -> \"Q\"\n",
"    \"^alli$\"                           -> \"ali\"\n"]

theorem lines1_ok : Part true lang macros vars (str "normalize") lines1 (str "rewrite") := by
  apply piece_of
  · dsimp only [lines1]; repeat (first | exact .nil | apply Spells.cons)
  · decide +kernel

def lines2 : List String := [
"    \"^bolla\"                           -> \"bola\"\n",
"    \"^cilla\"                           -> \"cila\"\n",
"    \"^dalla\"                           -> \"dala\"\n",
"    \"^ella\"                            -> \"ela\"\n",
"    \"^elli\"                            -> \"eli\"\n",
"    \"erlend\"                           -> \"er-lend\"\n",
"    \"faDir\"                            -> \"FaDir\"\n",
"    \"fall\"                             -> \"Fall\"\n",
"    \"feD{ur|ra}\"                       -> \"FeD\"\n",
"    \"fell\"                             -> \"Fell\"\n"]

theorem lines2_ok : Part true lang macros vars (str "rewrite") lines2 (str "rewrite") := by
  apply piece_of
  · dsimp only [lines2]; repeat (first | exact .nil | apply Spells.cons)
  · decide +kernel

def lines3 : List String := [
"    \"firDi\"                            -> \"FirDi\"\n",
"    \"fjarlYg\"                          -> \"fjar-lYg\"\n",
"    \"foss\"                             -> \"Foss\"\n",
"    \"fOlk\"                             -> \"FOlk\"\n",
"    \"fugl\"                             -> \"Fugl\"\n",
"    \"fylk{i|j}\"                        -> \"Fylk\"\n",
"    \"fQDur\"                            -> \"FQDur\"\n",
"    \"fQll\"                             -> \"FQll\"\n",
"    \"gud{brand|jon|laug|mund|rid|run}\" -> \"guD\"\n",
"    \"guD\"                              -> \"gvuD\"\n"]

theorem lines3_ok : Part true lang macros vars (str "rewrite") lines3 (str "rewrite") := by
  apply piece_of
  · dsimp only [lines3]; repeat (first | exact .nil | apply Spells.cons)
  · decide +kernel

def lines4 : List String := [
"    \"^halla\"                           -> \"hala\"\n",
"    \"^halli\"                           -> \"hali\"\n",
"    \"^hella\"                           -> \"hela\"\n",
"    \"^helli\"                           -> \"heli\"\n",
"    \"^hilla\"                           -> \"hila\"\n",
"    \"jQkull\"                           -> \"%jQkull\"\n",
"    \"^kalla\"                           -> \"kala\"\n",
"    \"^kamilla\"                         -> \"kamila\"\n",
"    \"^kalli\"                           -> \"kali\"\n",
"    \"^malla\"                           -> \"mala\"\n"]

theorem lines4_ok : Part true lang macros vars (str "rewrite") lines4 (str "rewrite") := by
  apply piece_of
  · dsimp only [lines4]; repeat (first | exact .nil | apply Spells.cons)
  · decide +kernel

def lines5 : List String := [
"    \"^malli\"                           -> \"mali\"\n",
"    \"^milla\"                           -> \"mila\"\n",
"    \"^nella\"                           -> \"nela\"\n",
"    \"^palli\"                           -> \"pali\"\n",
"    \"^silla\"                           -> \"sila\"\n",
"    \"stefAn\"                           -> \"steFAn\"\n",
"    \"sumarn{Ott|Yt}\"                   -> \"sumar-n\"\n",
"    \"^thor\"                            -> \"Tor\"\n",
"    \"^Tor\"                             -> \"Tor-\"\n",
"    \"^tolla\"                           -> \"tola\"\n"]

theorem lines5_ok : Part true lang macros vars (str "rewrite") lines5 (str "rewrite") := by
  apply piece_of
  · dsimp only [lines5]; repeat (first | exact .nil | apply Spells.cons)
  · decide +kernel

def lines6 : List String := [
"    \"varleg\"                           -> \"var-leg\"\n",
"    \"^villi\"                           -> \"vili\"\n",
"    \"nni$\"                             -> \"n,ni\"\n",
"    \"y\"                                -> \"i\"\n",
"    \"ý\"                                -> \"I\"\n",
"    \"au\"                               -> \"W\"\n",
"    \"ei\"                               -> \"X\"\n",
"    \"c{e|E|i|I}\"                       -> \"s\"\n",
"    \"c\"                                -> \"k\"\n",
"    \"qu\"                               -> \"kv\"\n"]

theorem lines6_ok : Part true lang macros vars (str "rewrite") lines6 (str "rewrite") := by
  apply piece_of
  · dsimp only [lines6]; repeat (first | exact .nil | apply Spells.cons)
  · decide +kernel

def lines7 : List String := [
"    \"q\"                                -> \"k\"\n",
"    \"w\"                                -> \"v\"\n",
"    \"xx\"                               -> \"x\"\n",
"    \"x\"                                -> \"ks\"\n",
"    \"tss{@}\"                           -> \"Ss\"\n",
"    \"ss\"                               -> \"s\"\n",
"    \"ds\"                               -> \"s\"\n",
"    \"ds{<cs>}\"                         -> \"Z\"\n",
"    \"ds$\"                              -> \"Z\"\n",
"    \"Ds\"                               -> \"s\"\n"]

theorem lines7_ok : Part true lang macros vars (str "rewrite") lines7 (str "rewrite") := by
  apply piece_of
  · dsimp only [lines7]; repeat (first | exact .nil | apply Spells.cons)
  · decide +kernel

def lines8 : List String := [
"    \"fn{d|t}\"                          -> \"m\"\n",
"    \"ff\"                               -> \"F\"\n",
"    \"f$\"                               -> \"v\"\n",
"    \"{@|l}f{@}\"                        -> \"v\"\n",
"    \"f\"                                -> \"F\"\n",
"    \"{@}g$\"                            -> \"H\"\n",
"    \"{@}g{s|S|t}\"                      -> \"k,\"\n",
"    \"{a|e|o|u|Q}g{i|I|j}\"              -> \"i\"\n",
"    \"{@}g{i|I|j}\"                      -> \"J\"\n",
"    \"{g|h|k|s}j\"                       -> \"J\"\n"]

theorem lines8_ok : Part true lang macros vars (str "rewrite") lines8 (str "rewrite") := by
  apply piece_of
  · dsimp only [lines8]; repeat (first | exact .nil | apply Spells.cons)
  · decide +kernel

def lines9 : List String := [
"    \"{g|k}Y\"                           -> \"JY\"\n",
"    \"hv\"                               -> \"kv\"\n",
"    \"{@}k{s|S|t}\"                      -> \"k,\"\n",
"    \"ll{d|s|t}\"                        -> \"l\"\n",
"    \"ll\"                               -> \"dl\"\n",
"    \"{@}mm{@}\"                         -> \"m,m\"\n",
"    \"mm\"                               -> \"m\"\n",
"    \"an{g|k}\"                          -> \"An\"\n",
"    \"en{g|k}\"                          -> \"ein\"\n",
"    \"un{g|k}\"                          -> \"Un\"\n"]

theorem lines9_ok : Part true lang macros vars (str "rewrite") lines9 (str "rewrite") := by
  apply piece_of
  · dsimp only [lines9]; repeat (first | exact .nil | apply Spells.cons)
  · decide +kernel

def lines10 : List String := [
"    \"Qn{g|k}\"                          -> \"Qin\"\n",
"    \"ng{s|<pl>}\"                       -> \"N\"\n",
"    \"{@}ngl{@}\"                        -> \"Nl\"\n",
"    \"ng\"                               -> \"Ng\"\n",
"    \"{@}nkl{@}\"                        -> \"Nl\"\n",
"    \"nk\"                               -> \"Nk\"\n",
"    \"{<ld>}nn\"                         -> \"dn\"\n",
"    \"{@}nn{@}\"                         -> \"n,n\"\n",
"    \"nn\"                               -> \"n\"\n",
"    \"pp\"                               -> \"p\"\n"]

theorem lines10_ok : Part true lang macros vars (str "rewrite") lines10 (str "rewrite") := by
  apply piece_of
  · dsimp only [lines10]; repeat (first | exact .nil | apply Spells.cons)
  · decide +kernel

def lines11 : List String := [
"    \"r{l|n}\"                           -> \"rd\"\n",
"    \"z\"                                -> \"s\"\n",
"    \"ts{<cs>}\"                         -> \"S\"\n",
"    \"ts$\"                              -> \"S\"\n",
"    \"^j{@}\"                            -> \"J\"\n",
"    \"{@|%}j{@}\"                        -> \"J\"\n",
"    \"Dj\"                               -> \"D%J\"\n",
"    \"j\"                                -> \"i\"\n",
"    \"A\"                                -> \"aU\"\n",
"    \"I\"                                -> \"i\"\n"]

theorem lines11_ok : Part true lang macros vars (str "rewrite") lines11 (str "rewrite") := by
  apply piece_of
  · dsimp only [lines11]; repeat (first | exact .nil | apply Spells.cons)
  · decide +kernel

def lines12 : List String := [
"    \"O\"                                -> \"o\"\n",
"    \"W\"                                -> \"Qi\"\n",
"    \"X\"                                -> \"ei\"\n",
"    \"^E\"                               -> \"Je\"\n",
"    \"{@|h}E\"                           -> \"Je\"\n",
"    \"E\"                                -> \"ie\"\n",
"    \"Y\"                                -> \"ai\"\n",
"    \"bb\"                               -> \"b\"\n",
"    \"dd\"                               -> \"d\"\n",
"    \"gg\"                               -> \"g\"\n"]

theorem lines12_ok : Part true lang macros vars (str "rewrite") lines12 (str "rewrite") := by
  apply piece_of
  · dsimp only [lines12]; repeat (first | exact .nil | apply Spells.cons)
  · decide +kernel

def lines13 : List String := [
"    \"hh\"                               -> \"h\"\n",
"    \"kk\"                               -> \"k\"\n",
"    \"pp\"                               -> \"p\"\n",
"    \"rr\"                               -> \"r\"\n",
"    \"tt\"                               -> \"t\"\n",
"    \"vv\"                               -> \"v\"\n",
"    \"h{@|J|l|n|r}\"                     -> \"H\"\n",
"    \"h\"                                -> \"\"\n",
"    \"^l\"                               -> \"l;\"\n",
"    \"^m\"                               -> \"m;\"\n"]

theorem lines13_ok : Part true lang macros vars (str "rewrite") lines13 (str "rewrite") := by
  apply piece_of
  · dsimp only [lines13]; repeat (first | exact .nil | apply Spells.cons)
  · decide +kernel

def lines14 : List String := [
"    \"^n\"                               -> \"n;\"\n",
"    \"l$\"                               -> \"l,\"\n",
"    \"m$\"                               -> \"m,\"\n",
"    \"n$\"                               -> \"n,\"\n",
"    \"l{@|m,|n,|N}\"                     -> \"l;\"\n",
"    \"{,}l\"                             -> \"l;\"\n",
"    \"m{@}\"                             -> \"m;\"\n",
"    \"n{@}\"                             -> \"n;\"\n",
"    \"l\"                                -> \"l,\"\n",
"    \"m\"                                -> \"m,\"\n"]

theorem lines14_ok : Part true lang macros vars (str "rewrite") lines14 (str "rewrite") := by
  apply piece_of
  · dsimp only [lines14]; repeat (first | exact .nil | apply Spells.cons)
  · decide +kernel

def lines15 : List String := [
"    \"n\"                                -> \"n,\"\n",
"    \"N\"                                -> \"N,\"\n",
"    \",,\"                               -> \",\"\n",
"    \",;\"                               -> \"\"\n",
"    \",l,\"                              -> \"l,\"\n",
"    \",m,\"                              -> \"m,\"\n",
"    \",n,\"                              -> \"n,\"\n",
"    \",N,\"                              -> \"N,\"\n",
"    \"l{m;|n;}\"                         -> \"l,\"\n",
"    \";\"                                -> \"\"\n"]

theorem lines15_ok : Part true lang macros vars (str "rewrite") lines15 (str "rewrite") := by
  apply piece_of
  · dsimp only [lines15]; repeat (first | exact .nil | apply Spells.cons)
  · decide +kernel

def lines16 : List String := [
"    \"-\"                                -> \"\"\n",
"\n"]

theorem lines16_ok : Part true lang macros vars (str "rewrite") lines16 (str "rewrite") := by
  apply piece_of
  · dsimp only [lines16]; repeat (first | exact .nil | apply Spells.cons)
  · decide +kernel

end Verif.Specs.Isl
