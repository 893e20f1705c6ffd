import Verif.Specs.CatHead

/-! specs/cat.hsl, part 1, generated by tools/gen_specs.py. -/

set_option Elab.async false

namespace Verif.Specs.Cat

open Hsl

def lines1 : List String := [
"rewrite:\n",
"    \"felix$\"         -> \"felics\"\n",
"    \"helix$\"         -> \"helics\"\n",
"    \"^fix\"           -> \"fics\"\n",
"    \"^aux{@}\"        -> \"augz\"\n",
"    \"^ex{@}\"         -> \"egz\"\n",
"    \"{@}s{@}\"        -> \"z\"\n",
"    \"{~s}s{<vo>}\"    -> \"z\"\n",
"    \"ç\"              -> \"s\"\n",
"    \"c{e|i}\"         -> \"s\"\n",
"    \"g{e|i}\"         -> \"j\"\n"]

theorem lines1_ok : Part true lang macros vars (str "normalize") lines1 (str "rewrite") := by
  apply piece_of
  · dsimp only [lines1]; repeat (first | exact .nil | apply Spells.cons)
  · decide +kernel

def lines2 : List String := [
"    \"{g|q}ü{e|i}\"    -> \"W\"\n",
"    \"{g|q}u{e|i}\"    -> \"\"\n",
"    \"ü\"              -> \"u\"\n",
"    \"{g|q}ua\"        -> \"Wa\"\n",
"    \"k\"              -> \"c\"\n",
"    \"q\"              -> \"c\"\n",
"    \"·\"              -> \",\"\n",
"    \"{@}ig$\"         -> \"C\"\n",
"    \"{@}igs$\"        -> \"Cs\"\n",
"    \"{@}ix\"          -> \"S\"\n"]

theorem lines2_ok : Part true lang macros vars (str "rewrite") lines2 (str "rewrite") := by
  apply piece_of
  · dsimp only [lines2]; repeat (first | exact .nil | apply Spells.cons)
  · decide +kernel

def lines3 : List String := [
"    \"ix{@}\"          -> \"iS\"\n",
"    \"ix$\"            -> \"iS\"\n",
"    \"{@}ux\"          -> \"uS\"\n",
"    \"ll\"             -> \"L\"\n",
"    \"ny{@}\"          -> \"nY\"\n",
"    \"{~<cs>}y{@}\"    -> \"Y\"\n",
"    \"y\"              -> \"i\"\n",
"    \"dj\"             -> \"D\"\n",
"    \"tj\"             -> \"D\"\n",
"    \"tx\"             -> \"C\"\n"]

theorem lines3_ok : Part true lang macros vars (str "rewrite") lines3 (str "rewrite") := by
  apply piece_of
  · dsimp only [lines3]; repeat (first | exact .nil | apply Spells.cons)
  · decide +kernel

def lines4 : List String := [
"    \"dz\"             -> \"Z\"\n",
"    \"tz\"             -> \"Z\"\n",
"    \"{@}ds{@}\"       -> \"t,s\"\n",
"    \"{@}ts{@}\"       -> \"t,s\"\n",
"    \"{l|n}d{~@|l|r}\" -> \"\"\n",
"    \"{l|n}t{~@|l|r}\" -> \"\"\n",
"    \"mb{~@|l|r}\"     -> \"m\"\n",
"    \"mp{~@|l|r}\"     -> \"m\"\n",
"    \"nc{@|l|r|W}\"    -> \"N,c\"\n",
"    \"nc\"             -> \"N,\"\n"]

theorem lines4_ok : Part true lang macros vars (str "rewrite") lines4 (str "rewrite") := by
  apply piece_of
  · dsimp only [lines4]; repeat (first | exact .nil | apply Spells.cons)
  · decide +kernel

def lines5 : List String := [
"    \"ng{@|l|r|W}\"    -> \"N,g\"\n",
"    \"ng\"             -> \"N,\"\n",
"    \"L{@}\"           -> \"lY\"\n",
"    \"L\"              -> \"l\"\n",
"    \"rds\"            -> \"rs\"\n",
"    \"rts\"            -> \"rs\"\n",
"    \"ds\"             -> \"T\"\n",
"    \"ts\"             -> \"T\"\n",
"    \"{@}x\"           -> \"cs\"\n",
"    \"x\"              -> \"S\"\n"]

theorem lines5_ok : Part true lang macros vars (str "rewrite") lines5 (str "rewrite") := by
  apply piece_of
  · dsimp only [lines5]; repeat (first | exact .nil | apply Spells.cons)
  · decide +kernel

def lines6 : List String := [
"    \"w\"              -> \"v\"\n",
"    \"h\"              -> \"\"\n",
"    \"b$\"             -> \"p\"\n",
"    \"b{<vl>}\"        -> \"p\"\n",
"    \"d$\"             -> \"t\"\n",
"    \"d{<vl>}\"        -> \"t\"\n",
"    \"ds{@}\"          -> \"t,s\"\n",
"    \"D{<vl>}\"        -> \"C\"\n",
"    \"D$\"             -> \"C\"\n",
"    \"D\"              -> \"z\"\n"]

theorem lines6_ok : Part true lang macros vars (str "rewrite") lines6 (str "rewrite") := by
  apply piece_of
  · dsimp only [lines6]; repeat (first | exact .nil | apply Spells.cons)
  · decide +kernel

def lines7 : List String := [
"    \"g$\"             -> \"k\"\n",
"    \"g{<vl>}\"        -> \"k\"\n",
"    \"v{<vl>}\"        -> \"f\"\n",
"    \"v$\"             -> \"f\"\n",
"    \"z{<vl>}\"        -> \"s\"\n",
"    \"z$\"             -> \"s\"\n",
"    \"Z{<vl>}\"        -> \"T\"\n",
"    \"Z$\"             -> \"T\"\n",
"    \"{@}c{<ob>}\"     -> \"c,\"\n",
"    \"{@}p{<ob>}\"     -> \"p,\"\n"]

theorem lines7_ok : Part true lang macros vars (str "rewrite") lines7 (str "rewrite") := by
  apply piece_of
  · dsimp only [lines7]; repeat (first | exact .nil | apply Spells.cons)
  · decide +kernel

def lines8 : List String := [
"    \"{@}t{<ob>}\"     -> \"t,\"\n",
"    \"bb\"             -> \"b\"\n",
"    \"bv\"             -> \"b\"\n",
"    \"cc\"             -> \"c\"\n",
"    \"dd\"             -> \"d\"\n",
"    \"ff\"             -> \"f\"\n",
"    \"gg\"             -> \"g\"\n",
"    \"ll\"             -> \"l\"\n",
"    \"mm\"             -> \"m\"\n",
"    \"nn\"             -> \"n\"\n"]

theorem lines8_ok : Part true lang macros vars (str "rewrite") lines8 (str "rewrite") := by
  apply piece_of
  · dsimp only [lines8]; repeat (first | exact .nil | apply Spells.cons)
  · decide +kernel

def lines9 : List String := [
"    \"pp\"             -> \"p\"\n",
"    \"rr\"             -> \"r\"\n",
"    \"ss\"             -> \"s\"\n",
"    \"tt\"             -> \"t\"\n",
"    \"zz\"             -> \"z\"\n",
"    \"v\"              -> \"b\"\n",
"    \"tS\"             -> \"C\"\n",
"    \"C{@}\"           -> \"T\"\n",
"    \"C\"              -> \"Ti\"\n",
"    \"S{@}\"           -> \"sY\"\n"]

theorem lines9_ok : Part true lang macros vars (str "rewrite") lines9 (str "rewrite") := by
  apply piece_of
  · dsimp only [lines9]; repeat (first | exact .nil | apply Spells.cons)
  · decide +kernel

def lines10 : List String := [
"    \"S$\"             -> \"si\"\n",
"    \"S\"              -> \"sYu\"\n",
"    \"Z\"              -> \"z\"\n",
"    \"y\"              -> \"i\"\n",
"    \"^l\"             -> \"l;\"\n",
"    \"^m\"             -> \"m;\"\n",
"    \"^n\"             -> \"n;\"\n",
"    \"l$\"             -> \"l,\"\n",
"    \"m$\"             -> \"m,\"\n",
"    \"n$\"             -> \"n,\"\n"]

theorem lines10_ok : Part true lang macros vars (str "rewrite") lines10 (str "rewrite") := by
  apply piece_of
  · dsimp only [lines10]; repeat (first | exact .nil | apply Spells.cons)
  · decide +kernel

def lines11 : List String := [
"    \"l{@|Y|m,|n,}\"   -> \"l;\"\n",
"    \"{,}l\"           -> \"l;\"\n",
"    \"m{@}\"           -> \"m;\"\n",
"    \"n{@|Y}\"         -> \"n;\"\n",
"    \"l\"              -> \"l,\"\n",
"    \"m\"              -> \"m,\"\n",
"    \"n\"              -> \"n,\"\n",
"    \",,\"             -> \",\"\n",
"    \",;\"             -> \"\"\n",
"    \",l,\"            -> \"l,\"\n"]

theorem lines11_ok : Part true lang macros vars (str "rewrite") lines11 (str "rewrite") := by
  apply piece_of
  · dsimp only [lines11]; repeat (first | exact .nil | apply Spells.cons)
  · decide +kernel

def lines12 : List String := [
"    \",m,\"            -> \"m,\"\n",
"    \",n,\"            -> \"n,\"\n",
"    \"l{m;|n;}\"       -> \"l,\"\n",
"    \";\"              -> \"\"\n",
"\n"]

theorem lines12_ok : Part true lang macros vars (str "rewrite") lines12 (str "rewrite") := by
  apply piece_of
  · dsimp only [lines12]; repeat (first | exact .nil | apply Spells.cons)
  · decide +kernel

def lines13 : List String := [
"transcribe:\n",
"    \"b\"    -> \"ㅂ\"\n",
"    \"c,\"   -> \"-ㄱ\"\n",
"    \"c\"    -> \"ㅋ\"\n",
"    \"d\"    -> \"ㄷ\"\n",
"    \"f\"    -> \"ㅍ\"\n",
"    \"g\"    -> \"ㄱ\"\n",
"    \"j\"    -> \"ㅈ\"\n",
"    \"^l\"   -> \"ㄹ\"\n",
"    \"{,}l\" -> \"ㄹ\"\n",
"    \"l,\"   -> \"-ㄹ\"\n"]

theorem lines13_ok : Part true lang macros vars (str "rewrite") lines13 (str "transcribe") := by
  apply piece_of
  · dsimp only [lines13]; repeat (first | exact .nil | apply Spells.cons)
  · decide +kernel

def lines14 : List String := [
"    \"l\"    -> \"-ㄹㄹ\"\n",
"    \"m,\"   -> \"-ㅁ\"\n",
"    \"m\"    -> \"ㅁ\"\n",
"    \"n,\"   -> \"-ㄴ\"\n",
"    \"n\"    -> \"ㄴ\"\n",
"    \"N\"    -> \"-ㅇ\"\n",
"    \"p,\"   -> \"-ㅂ\"\n",
"    \"p\"    -> \"ㅍ\"\n",
"    \"r\"    -> \"ㄹ\"\n",
"    \"s\"    -> \"ㅅ\"\n"]

theorem lines14_ok : Part true lang macros vars (str "transcribe") lines14 (str "transcribe") := by
  apply piece_of
  · dsimp only [lines14]; repeat (first | exact .nil | apply Spells.cons)
  · decide +kernel

def lines15 : List String := [
"    \"t,\"   -> \"-ㅅ\"\n",
"    \"t\"    -> \"ㅌ\"\n",
"    \"T\"    -> \"ㅊ\"\n",
"    \"z\"    -> \"ㅈ\"\n",
"    \"Ya\"   -> \"ㅑ\"\n",
"    \"Ye\"   -> \"ㅖ\"\n",
"    \"Yi\"   -> \"ㅣ\"\n",
"    \"Yo\"   -> \"ㅛ\"\n",
"    \"Yu\"   -> \"ㅠ\"\n",
"    \"Wa\"   -> \"ㅘ\"\n"]

theorem lines15_ok : Part true lang macros vars (str "transcribe") lines15 (str "transcribe") := by
  apply piece_of
  · dsimp only [lines15]; repeat (first | exact .nil | apply Spells.cons)
  · decide +kernel

def lines16 : List String := [
"    \"We\"   -> \"ㅞ\"\n",
"    \"Wi\"   -> \"ㅟ\"\n",
"    \"a\"    -> \"ㅏ\"\n",
"    \"e\"    -> \"ㅔ\"\n",
"    \"i\"    -> \"ㅣ\"\n",
"    \"o\"    -> \"ㅗ\"\n",
"    \"u\"    -> \"ㅜ\"\n",
"\n"]

theorem lines16_ok : Part true lang macros vars (str "transcribe") lines16 (str "transcribe") := by
  apply piece_of
  · dsimp only [lines16]; repeat (first | exact .nil | apply Spells.cons)
  · decide +kernel

end Verif.Specs.Cat
