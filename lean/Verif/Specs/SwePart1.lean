import Verif.Specs.SweHead

/-! specs/swe.hsl, part 1, generated by tools/gen_specs.py. -/

set_option Elab.async false

namespace Verif.Specs.Swe

open Hsl

def lines1 : List String := [
"rewrite:\n",
"    \"å\"              -> \"A\"\n",
"    \"ä\"              -> \"E\"\n",
"    \"ö\"              -> \"O\"\n",
"    \"w\"              -> \"v\"\n",
"    \"adjO\"           -> \"ajO\"\n",
"    \"berg\"           -> \"beri\"\n",
"    \"borg\"           -> \"bori\"\n",
"    \"dvErg\"          -> \"dvEri\"\n",
"    \"fErg\"           -> \"fEri\"\n",
"    \"karg\"           -> \"kari\"\n"]

theorem lines1_ok : Part true lang macros vars (str "normalize") lines1 (str "rewrite") := by
  apply piece_of
  · dsimp only [lines1]; repeat (first | exact .nil | apply Spells.cons)
  · decide +kernel

def lines2 : List String := [
"    \"korg\"           -> \"kori\"\n",
"    \"mErg\"           -> \"mEri\"\n",
"    \"sorg\"           -> \"sori\"\n",
"    \"torg\"           -> \"tori\"\n",
"    \"varg\"           -> \"vari\"\n",
"    \"norge\"          -> \"norje\"\n",
"    \"sverige\"        -> \"sverije\"\n",
"    \"avg{e|i}\"       -> \"avj\"\n",
"    \"namng{e|i}\"     -> \"namnj\"\n",
"    \"Aterg{e|i}\"     -> \"Aterj\"\n"]

theorem lines2_ok : Part true lang macros vars (str "rewrite") lines2 (str "rewrite") := by
  apply piece_of
  · dsimp only [lines2]; repeat (first | exact .nil | apply Spells.cons)
  · decide +kernel

def lines3 : List String := [
"    \"Overg{e|i}\"     -> \"Overj\"\n",
"    \"^igen\"          -> \"ijen\"\n",
"    \"reger\"          -> \"rejer\"\n",
"    \"regist\"         -> \"rejist\"\n",
"    \"gata$\"          -> \"Gata\"\n",
"    \"gatan$\"         -> \"Gatan\"\n",
"    \"giva\"           -> \"jiva\"\n",
"    \"gift\"           -> \"jift\"\n",
"    \"genom\"          -> \"jenom\"\n",
"    \"geir\"           -> \"Geir\"\n"]

theorem lines3_ok : Part true lang macros vars (str "rewrite") lines3 (str "rewrite") := by
  apply piece_of
  · dsimp only [lines3]; repeat (first | exact .nil | apply Spells.cons)
  · decide +kernel

def lines4 : List String := [
"    \"gren$\"          -> \"Gren\"\n",
"    \"grens$\"         -> \"Grens\"\n",
"    \"guyan\"          -> \"Gaian\"\n",
"    \"kebnekaise\"     -> \"Kebnekaise\"\n",
"    \"kelvin\"         -> \"Kelvin\"\n",
"    \"kelviA\"         -> \"KelviA\"\n",
"    \"kennet\"         -> \"Kennet\"\n",
"    \"^keke\"          -> \"Keke\"\n",
"    \"^kent\"          -> \"Kent\"\n",
"    \"kexholm\"        -> \"Kexholm\"\n"]

theorem lines4_ok : Part true lang macros vars (str "rewrite") lines4 (str "rewrite") := by
  apply piece_of
  · dsimp only [lines4]; repeat (first | exact .nil | apply Spells.cons)
  · decide +kernel

def lines5 : List String := [
"    \"^kim\"           -> \"Kim\"\n",
"    \"kiruna\"         -> \"Kiruna\"\n",
"    \"^kO$\"           -> \"KO\"\n",
"    \"^bilkO\"         -> \"bilKO\"\n",
"    \"^kOer$\"         -> \"KOer\"\n",
"    \"^kOren$\"        -> \"KOren\"\n",
"    \"^kOrfestival\"   -> \"KOrfestival\"\n",
"    \"^kymmen\"        -> \"Kymmen\"\n",
"    \"lysekil\"        -> \"lyseSil\"\n",
"    \"guyan\"          -> \"Gaian\"\n"]

theorem lines5_ok : Part true lang macros vars (str "rewrite") lines5 (str "rewrite") := by
  apply piece_of
  · dsimp only [lines5]; repeat (first | exact .nil | apply Spells.cons)
  · decide +kernel

def lines6 : List String := [
"    \"mEnnisk\"        -> \"mEnniS\"\n",
"    \"sjuk\"           -> \"sjuk{}\"\n",
"    \"xx\"             -> \"x\"\n",
"    \"x\"              -> \"ks\"\n",
"    \"ds\"             -> \"s\"\n",
"    \"sch{@}\"         -> \"S\"\n",
"    \"sch\"            -> \"Su\"\n",
"    \"^sk{e|E|i|O|y}\" -> \"S\"\n",
"    \"sk{E|O|y}\"      -> \"S\"\n",
"    \"^sk{e|E|i|O|y}\" -> \"S\"\n"]

theorem lines6_ok : Part true lang macros vars (str "rewrite") lines6 (str "rewrite") := by
  apply piece_of
  · dsimp only [lines6]; repeat (first | exact .nil | apply Spells.cons)
  · decide +kernel

def lines7 : List String := [
"    \"sk{E|O|y}\"      -> \"S\"\n",
"    \"skj\"            -> \"S\"\n",
"    \"stj\"            -> \"S\"\n",
"    \"kj\"             -> \"S\"\n",
"    \"sj\"             -> \"S\"\n",
"    \"ttj\"            -> \"ti\"\n",
"    \"tj\"             -> \"S\"\n",
"    \"^g{e|E|i|O|y}\"  -> \"j\"\n",
"    \"g{E|O|y}\"       -> \"j\"\n",
"    \"^k{e|E|i|O|y}\"  -> \"S\"\n"]

theorem lines7_ok : Part true lang macros vars (str "rewrite") lines7 (str "rewrite") := by
  apply piece_of
  · dsimp only [lines7]; repeat (first | exact .nil | apply Spells.cons)
  · decide +kernel

def lines8 : List String := [
"    \"k{E|O|y}\"       -> \"S\"\n",
"    \"ch{@}\"          -> \"S\"\n",
"    \"ch\"             -> \"k\"\n",
"    \"c{e|i|y}\"       -> \"s\"\n",
"    \"c\"              -> \"k\"\n",
"    \"tionde\"         -> \"ti{}onde\"\n",
"    \"tion\"           -> \"Son\"\n",
"    \"^dj\"            -> \"j\"\n",
"    \"gj\"             -> \"j\"\n",
"    \"hj\"             -> \"j\"\n"]

theorem lines8_ok : Part true lang macros vars (str "rewrite") lines8 (str "rewrite") := by
  apply piece_of
  · dsimp only [lines8]; repeat (first | exact .nil | apply Spells.cons)
  · decide +kernel

def lines9 : List String := [
"    \"^lj\"            -> \"j\"\n",
"    \"lg$\"            -> \"li\"\n",
"    \"lg{@|l|r}\"      -> \"lG\"\n",
"    \"lg\"             -> \"li\"\n",
"    \"rg$\"            -> \"ri\"\n",
"    \"rg{l|@|r}\"      -> \"rG\"\n",
"    \"rg\"             -> \"ri\"\n",
"    \"rl\"             -> \"l\"\n",
"    \"qu\"             -> \"kv\"\n",
"    \"q\"              -> \"k\"\n"]

theorem lines9_ok : Part true lang macros vars (str "rewrite") lines9 (str "rewrite") := by
  apply piece_of
  · dsimp only [lines9]; repeat (first | exact .nil | apply Spells.cons)
  · decide +kernel

def lines10 : List String := [
"    \"{@}gn\"          -> \"Nn\"\n",
"    \"ng\"             -> \"N\"\n",
"    \"nkt\"            -> \"Nt\"\n",
"    \"nk\"             -> \"Nk\"\n",
"    \"mn{@}\"          -> \"m,n\"\n",
"    \"Nn{@}\"          -> \"N,n\"\n",
"    \"{m|N}n\"         -> \"\"\n",
"    \"th\"             -> \"t\"\n",
"    \"z\"              -> \"s\"\n",
"    \"jO\"             -> \"je\"\n"]

theorem lines10_ok : Part true lang macros vars (str "rewrite") lines10 (str "rewrite") := by
  apply piece_of
  · dsimp only [lines10]; repeat (first | exact .nil | apply Spells.cons)
  · decide +kernel

def lines11 : List String := [
"    \"SO\"             -> \"Se\"\n",
"    \"S{@}\"           -> \"sJ\"\n",
"    \"S\"              -> \"si\"\n",
"    \"^j{@}\"          -> \"J\"\n",
"    \"{@}j{@}\"        -> \"J\"\n",
"    \"j\"              -> \"i\"\n",
"    \"G\"              -> \"g\"\n",
"    \"K\"              -> \"k\"\n",
"    \"aa\"             -> \"a\"\n",
"    \"bb\"             -> \"b\"\n"]

theorem lines11_ok : Part true lang macros vars (str "rewrite") lines11 (str "rewrite") := by
  apply piece_of
  · dsimp only [lines11]; repeat (first | exact .nil | apply Spells.cons)
  · decide +kernel

def lines12 : List String := [
"    \"dd\"             -> \"d\"\n",
"    \"ee\"             -> \"e\"\n",
"    \"ff\"             -> \"f\"\n",
"    \"gg\"             -> \"g\"\n",
"    \"hh\"             -> \"h\"\n",
"    \"ii\"             -> \"i\"\n",
"    \"jj\"             -> \"j\"\n",
"    \"kk\"             -> \"k\"\n",
"    \"ll\"             -> \"l\"\n",
"    \"{@}mm{@}\"       -> \"m,m\"\n"]

theorem lines12_ok : Part true lang macros vars (str "rewrite") lines12 (str "rewrite") := by
  apply piece_of
  · dsimp only [lines12]; repeat (first | exact .nil | apply Spells.cons)
  · decide +kernel

def lines13 : List String := [
"    \"mm\"             -> \"m\"\n",
"    \"{@}nn{@}\"       -> \"n,n\"\n",
"    \"nn\"             -> \"n\"\n",
"    \"oo\"             -> \"o\"\n",
"    \"pp\"             -> \"p\"\n",
"    \"rr\"             -> \"r\"\n",
"    \"ss\"             -> \"s\"\n",
"    \"tt\"             -> \"t\"\n",
"    \"uu\"             -> \"u\"\n",
"    \"vv\"             -> \"v\"\n"]

theorem lines13_ok : Part true lang macros vars (str "rewrite") lines13 (str "rewrite") := by
  apply piece_of
  · dsimp only [lines13]; repeat (first | exact .nil | apply Spells.cons)
  · decide +kernel

def lines14 : List String := [
"    \"yy\"             -> \"y\"\n",
"    \"zz\"             -> \"z\"\n",
"    \"A\"              -> \"o\"\n",
"    \"E\"              -> \"e\"\n",
"    \"h{@}\"           -> \"H\"\n",
"    \"h\"              -> \"\"\n",
"    \"H\"              -> \"h\"\n",
"    \"{@}b{<vl>}\"     -> \"p,\"\n",
"    \"{@}g{<vl>}\"     -> \"k,\"\n",
"    \"{@}k{<vl>}\"     -> \"k,\"\n"]

theorem lines14_ok : Part true lang macros vars (str "rewrite") lines14 (str "rewrite") := by
  apply piece_of
  · dsimp only [lines14]; repeat (first | exact .nil | apply Spells.cons)
  · decide +kernel

def lines15 : List String := [
"    \"{@}p{<vl>}\"     -> \"p,\"\n",
"    \"{@}t{<vl>}\"     -> \"t,\"\n",
"    \"^l\"             -> \"l;\"\n",
"    \"^m\"             -> \"m;\"\n",
"    \"^n\"             -> \"n;\"\n",
"    \"l$\"             -> \"l,\"\n",
"    \"m$\"             -> \"m,\"\n",
"    \"n$\"             -> \"n,\"\n",
"    \"l{@|m,|n,|N}\"   -> \"l;\"\n",
"    \"{,}l\"           -> \"l;\"\n"]

theorem lines15_ok : Part true lang macros vars (str "rewrite") lines15 (str "rewrite") := by
  apply piece_of
  · dsimp only [lines15]; repeat (first | exact .nil | apply Spells.cons)
  · decide +kernel

def lines16 : List String := [
"    \"m{@}\"           -> \"m;\"\n",
"    \"n{@}\"           -> \"n;\"\n",
"    \"l\"              -> \"l,\"\n",
"    \"m\"              -> \"m,\"\n",
"    \"n\"              -> \"n,\"\n",
"    \"N\"              -> \"N,\"\n",
"    \",,\"             -> \",\"\n",
"    \",;\"             -> \"\"\n",
"    \",l,\"            -> \"l,\"\n",
"    \",m,\"            -> \"m,\"\n"]

theorem lines16_ok : Part true lang macros vars (str "rewrite") lines16 (str "rewrite") := by
  apply piece_of
  · dsimp only [lines16]; repeat (first | exact .nil | apply Spells.cons)
  · decide +kernel

end Verif.Specs.Swe
