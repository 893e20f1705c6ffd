import Verif.Specs.SlkHead

/-! specs/slk.hsl, part 1, generated by tools/gen_specs.py. -/

set_option Elab.async false

namespace Verif.Specs.Slk

open Hsl

def lines1 : List String := [
"rewrite:\n",
"    \"á\"                                                          -> \"A\"\n",
"    \"ä\"                                                          -> \"P\"\n",
"    \"č\"                                                          -> \"C\"\n",
"    \"ď\"                                                          -> \"D\"\n",
"    \"é\"                                                          -> \"E\"\n",
"    \"í\"                                                          -> \"I\"\n",
"    \"ĺ\"                                                          -> \"L\"\n",
"    \"ľ\"                                                          -> \"Q\"\n",
"    \"ň\"                                                          -> \"N\"\n",
"    \"ó\"                                                          -> \"O\"\n"]

theorem lines1_ok : Part true lang macros vars (str "normalize") lines1 (str "rewrite") := by
  apply piece_of
  · dsimp only [lines1]; repeat (first | exact .nil | apply Spells.cons)
  · decide +kernel

def lines2 : List String := [
"    \"ô\"                                                          -> \"W\"\n",
"    \"ŕ\"                                                          -> \"R\"\n",
"    \"š\"                                                          -> \"S\"\n",
"    \"ť\"                                                          -> \"T\"\n",
"    \"ú\"                                                          -> \"U\"\n",
"    \"ý\"                                                          -> \"Y\"\n",
"    \"ž\"                                                          -> \"Z\"\n",
"    \"^bielov{<cs>}\"                                              -> \"bieloV\"\n",
"    \"^bratovr\"                                                   -> \"bratoVr\"\n",
"    \"^cArov{<cs>}\"                                               -> \"cAroV\"\n"]

theorem lines2_ok : Part true lang macros vars (str "rewrite") lines2 (str "rewrite") := by
  apply piece_of
  · dsimp only [lines2]; repeat (first | exact .nil | apply Spells.cons)
  · decide +kernel

def lines3 : List String := [
"    \"^cudzov{<cs>}\"                                              -> \"cudzoV\"\n",
"    \"^Carov{<cs>}\"                                               -> \"CaroV\"\n",
"    \"^dov{<cs>}\"                                                 -> \"doV\"\n",
"    \"^drevov{<cs>}\"                                              -> \"drevoV\"\n",
"    \"^hrWzov{<cs>}\"                                              -> \"hrWzoV\"\n",
"    \"^krutov{<cs>}\"                                              -> \"krutoV\"\n",
"    \"^mAlov{<cs>}\"                                               -> \"mAloV\"\n",
"    \"^mimov{<cs>}\"                                               -> \"mimoV\"\n",
"    \"^mnohov{<cs>}\"                                              -> \"mnohoV\"\n",
"    \"^nav{l|r|z}\"                                                -> \"naV\"\n"]

theorem lines3_ok : Part true lang macros vars (str "rewrite") lines3 (str "rewrite") := by
  apply piece_of
  · dsimp only [lines3]; repeat (first | exact .nil | apply Spells.cons)
  · decide +kernel

def lines4 : List String := [
"    \"^nAvr\"                                                      -> \"nAVr\"\n",
"    \"^nev{<cs>}\"                                                 -> \"neV\"\n",
"    \"^ov{dov|lAd|laZ|p|r}\"                                       -> \"oV\"\n",
"    \"^polov{<cs>}\"                                               -> \"poloV\"\n",
"    \"^poStov{<cs>}\"                                              -> \"poStoV\"\n",
"    \"^povra\"                                                     -> \"poura\"\n",
"    \"^pov{<cs>}\"                                                 -> \"poV\"\n",
"    \"^povyv{<cs>}\"                                               -> \"povyV\"\n",
"    \"^povzb\"                                                     -> \"poVzb\"\n",
"    \"^pravl\"                                                     -> \"praVl\"\n"]

theorem lines4_ok : Part true lang macros vars (str "rewrite") lines4 (str "rewrite") := by
  apply piece_of
  · dsimp only [lines4]; repeat (first | exact .nil | apply Spells.cons)
  · decide +kernel

def lines5 : List String := [
"    \"^prev{<cs>}\"                                                -> \"preV\"\n",
"    \"^priv{<cs>}\"                                                -> \"priV\"\n",
"    \"spoluv{<cs>}\"                                               -> \"spoluV\"\n",
"    \"^sUv{<cs>}\"                                                 -> \"sUV\"\n",
"    \"^vov{<cs>}\"                                                 -> \"voV\"\n",
"    \"^vyv{<cs>}\"                                                 -> \"vyV\"\n",
"    \"^zav{<cs>}\"                                                 -> \"zaV\"\n",
"    \"^zov{<cs>}\"                                                 -> \"zoV\"\n",
"    \"^uv{<cs>}\"                                                  -> \"uV\"\n",
"    \"v{Cera|lAd|las|rAs|rav|rat|rAt|Simn|tAk|tip|zdu|zTah|zTaZ}\" -> \"V\"\n"]

theorem lines5_ok : Part true lang macros vars (str "rewrite") lines5 (str "rewrite") := by
  apply piece_of
  · dsimp only [lines5]; repeat (first | exact .nil | apply Spells.cons)
  · decide +kernel

def lines6 : List String := [
"    \"v{lC|QC|lh|lk}\"                                             -> \"v\"\n",
"    \"vl{C|h|k|n}\"                                                -> \"Vl\"\n",
"    \"vr{h|ch|kn|l|stv|z|Zl}\"                                     -> \"Vr\"\n",
"    \"vR{S|t|z}\"                                                  -> \"VR\"\n",
"    \"vz{d|h|n|T}\"                                                -> \"Vz\"\n",
"    \"v{n|N}\"                                                     -> \"V\"\n",
"    \"{@}v{<cs>}\"                                                 -> \"u\"\n",
"    \"{@}v$\"                                                      -> \"u\"\n",
"    \"V\"                                                          -> \"v\"\n",
"    \"A\"                                                          -> \"a\"\n"]

theorem lines6_ok : Part true lang macros vars (str "rewrite") lines6 (str "rewrite") := by
  apply piece_of
  · dsimp only [lines6]; repeat (first | exact .nil | apply Spells.cons)
  · decide +kernel

def lines7 : List String := [
"    \"P\"                                                          -> \"e\"\n",
"    \"E\"                                                          -> \"e\"\n",
"    \"I\"                                                          -> \"i\"\n",
"    \"L\"                                                          -> \"l\"\n",
"    \"O\"                                                          -> \"o\"\n",
"    \"R\"                                                          -> \"r\"\n",
"    \"W\"                                                          -> \"uo\"\n",
"    \"U\"                                                          -> \"u\"\n",
"    \"w\"                                                          -> \"v\"\n",
"    \"ts\"                                                         -> \"c\"\n"]

theorem lines7_ok : Part true lang macros vars (str "rewrite") lines7 (str "rewrite") := by
  apply piece_of
  · dsimp only [lines7]; repeat (first | exact .nil | apply Spells.cons)
  · decide +kernel

def lines8 : List String := [
"    \"tS\"                                                         -> \"C\"\n",
"    \"b{<vl>}\"                                                    -> \"p\"\n",
"    \"b$\"                                                         -> \"p\"\n",
"    \"d{<vl>}\"                                                    -> \"t\"\n",
"    \"d$\"                                                         -> \"t\"\n",
"    \"dz{<vl>}\"                                                   -> \"c\"\n",
"    \"dz$\"                                                        -> \"c\"\n",
"    \"dZ{<vl>}\"                                                   -> \"C\"\n",
"    \"dZ$\"                                                        -> \"C\"\n",
"    \"D{<vl>}\"                                                    -> \"T\"\n"]

theorem lines8_ok : Part true lang macros vars (str "rewrite") lines8 (str "rewrite") := by
  apply piece_of
  · dsimp only [lines8]; repeat (first | exact .nil | apply Spells.cons)
  · decide +kernel

def lines9 : List String := [
"    \"D$\"                                                         -> \"T\"\n",
"    \"g{<vl>}\"                                                    -> \"k\"\n",
"    \"g$\"                                                         -> \"k\"\n",
"    \"v{<vl>}\"                                                    -> \"f\"\n",
"    \"v$\"                                                         -> \"f\"\n",
"    \"z{<vl>}\"                                                    -> \"s\"\n",
"    \"z$\"                                                         -> \"s\"\n",
"    \"Z{<vl>}\"                                                    -> \"S\"\n",
"    \"Z$\"                                                         -> \"S\"\n",
"    \"C{@}\"                                                       -> \"c\"\n"]

theorem lines9_ok : Part true lang macros vars (str "rewrite") lines9 (str "rewrite") := by
  apply piece_of
  · dsimp only [lines9]; repeat (first | exact .nil | apply Spells.cons)
  · decide +kernel

def lines10 : List String := [
"    \"C\"                                                          -> \"ci\"\n",
"    \"D{@}\"                                                       -> \"dJ\"\n",
"    \"D\"                                                          -> \"di\"\n",
"    \"Q{@}\"                                                       -> \"lJ\"\n",
"    \"Q\"                                                          -> \"l\"\n",
"    \"N{@}\"                                                       -> \"nJ\"\n",
"    \"N\"                                                          -> \"n\"\n",
"    \"S{@}\"                                                       -> \"sJ\"\n",
"    \"S$\"                                                         -> \"si\"\n",
"    \"S\"                                                          -> \"sJu\"\n"]

theorem lines10_ok : Part true lang macros vars (str "rewrite") lines10 (str "rewrite") := by
  apply piece_of
  · dsimp only [lines10]; repeat (first | exact .nil | apply Spells.cons)
  · decide +kernel

def lines11 : List String := [
"    \"T{@}\"                                                       -> \"tJ\"\n",
"    \"T\"                                                          -> \"ti\"\n",
"    \"dZ{@}\"                                                      -> \"z\"\n",
"    \"dZ\"                                                         -> \"zi\"\n",
"    \"Z{@}\"                                                       -> \"z\"\n",
"    \"Z\"                                                          -> \"zu\"\n",
"    \"xx\"                                                         -> \"x\"\n",
"    \"^x\"                                                         -> \"z\"\n",
"    \"x\"                                                          -> \"ks\"\n",
"    \"qu\"                                                         -> \"kv\"\n"]

theorem lines11_ok : Part true lang macros vars (str "rewrite") lines11 (str "rewrite") := by
  apply piece_of
  · dsimp only [lines11]; repeat (first | exact .nil | apply Spells.cons)
  · decide +kernel

def lines12 : List String := [
"    \"q\"                                                          -> \"k\"\n",
"    \"ch\"                                                         -> \"h\"\n",
"    \"aa\"                                                         -> \"a\"\n",
"    \"bb\"                                                         -> \"b\"\n",
"    \"dd\"                                                         -> \"d\"\n",
"    \"ee\"                                                         -> \"e\"\n",
"    \"ff\"                                                         -> \"f\"\n",
"    \"gg\"                                                         -> \"g\"\n",
"    \"hh\"                                                         -> \"h\"\n",
"    \"jj\"                                                         -> \"ij\"\n"]

theorem lines12_ok : Part true lang macros vars (str "rewrite") lines12 (str "rewrite") := by
  apply piece_of
  · dsimp only [lines12]; repeat (first | exact .nil | apply Spells.cons)
  · decide +kernel

def lines13 : List String := [
"    \"ii\"                                                         -> \"i\"\n",
"    \"^j{@}\"                                                      -> \"J\"\n",
"    \"{@}j{@}\"                                                    -> \"J\"\n",
"    \"sje\"                                                        -> \"sJe\"\n",
"    \"je\"                                                         -> \"e\"\n",
"    \"{l|n|d|s|t}j{@}\"                                            -> \"J\"\n",
"    \"{l|n}j\"                                                     -> \"\"\n",
"    \"j\"                                                          -> \"i\"\n",
"    \"ij\"                                                         -> \"i\"\n",
"    \"yj\"                                                         -> \"y\"\n"]

theorem lines13_ok : Part true lang macros vars (str "rewrite") lines13 (str "rewrite") := by
  apply piece_of
  · dsimp only [lines13]; repeat (first | exact .nil | apply Spells.cons)
  · decide +kernel

def lines14 : List String := [
"    \"kk\"                                                         -> \"k\"\n",
"    \"ll\"                                                         -> \"l\"\n",
"    \"{@}mm{@}\"                                                   -> \"m,m\"\n",
"    \"mm\"                                                         -> \"m\"\n",
"    \"{@}nn{@}\"                                                   -> \"n,n\"\n",
"    \"nn\"                                                         -> \"n\"\n",
"    \"oo\"                                                         -> \"o\"\n",
"    \"pp\"                                                         -> \"p\"\n",
"    \"rr\"                                                         -> \"r\"\n",
"    \"ss\"                                                         -> \"s\"\n"]

theorem lines14_ok : Part true lang macros vars (str "rewrite") lines14 (str "rewrite") := by
  apply piece_of
  · dsimp only [lines14]; repeat (first | exact .nil | apply Spells.cons)
  · decide +kernel

def lines15 : List String := [
"    \"tt\"                                                         -> \"t\"\n",
"    \"uu\"                                                         -> \"u\"\n",
"    \"vv\"                                                         -> \"v\"\n",
"    \"^y{@}\"                                                      -> \"J\"\n",
"    \"{@}y{@}\"                                                    -> \"J\"\n",
"    \"yy\"                                                         -> \"y\"\n",
"    \"y\"                                                          -> \"i\"\n",
"    \"Y\"                                                          -> \"i\"\n",
"    \"zz\"                                                         -> \"z\"\n",
"    \"dz\"                                                         -> \"z\"\n"]

theorem lines15_ok : Part true lang macros vars (str "rewrite") lines15 (str "rewrite") := by
  apply piece_of
  · dsimp only [lines15]; repeat (first | exact .nil | apply Spells.cons)
  · decide +kernel

def lines16 : List String := [
"    \"je\"                                                         -> \"e\"\n",
"    \"{@}k{<vl>}\"                                                 -> \"k,\"\n",
"    \"{@}p{<vl>}\"                                                 -> \"p,\"\n",
"    \"^l\"                                                         -> \"l;\"\n",
"    \"^m\"                                                         -> \"m;\"\n",
"    \"^n\"                                                         -> \"n;\"\n",
"    \"l$\"                                                         -> \"l,\"\n",
"    \"m$\"                                                         -> \"m,\"\n",
"    \"n$\"                                                         -> \"n,\"\n",
"    \"l{@|J|m,|n,}\"                                               -> \"l;\"\n"]

theorem lines16_ok : Part true lang macros vars (str "rewrite") lines16 (str "rewrite") := by
  apply piece_of
  · dsimp only [lines16]; repeat (first | exact .nil | apply Spells.cons)
  · decide +kernel

end Verif.Specs.Slk
