import Verif.Specs.NldHead

/-! specs/nld.hsl, part 2, generated by tools/gen_specs.py. -/

set_option Elab.async false

namespace Verif.Specs.Nld

open Hsl

def lines17 : List String := [
"    \"boulevard\"                                         -> \"boelevar\"\n",
"    \"bourgogne\"                                         -> \"boergonje\"\n",
"    \"bourgond\"                                          -> \"boergond\"\n",
"    \"bouvier\"                                           -> \"boeviE\"\n",
"    \"bowl\"                                              -> \"bol\"\n",
"    \"braille\"                                           -> \"braje\"\n",
"    \"brek\"                                              -> \"brEk\"\n",
"    \"breng\"                                             -> \"brEng\"\n",
"    \"budget\"                                            -> \"buzEt\"\n",
"    \"buffet\"                                            -> \"buffEt\"\n"]

theorem lines17_ok : Part false lang macros vars (str "rewrite") lines17 (str "rewrite") := by
  apply piece_of
  · dsimp only [lines17]; repeat (first | exact .nil | apply Spells.cons)
  · decide +kernel

def lines18 : List String := [
"    \"bungalowtent\"                                      -> \"bungalowtEnt\"\n",
"    \"bungalow\"                                          -> \"bungGalo\"\n",
"    \"cabaretier\"                                        -> \"cabarEtiE\"\n",
"    \"cabaret\"                                           -> \"cabarE\"\n",
"    \"cabriolet\"                                         -> \"cabriolEt\"\n",
"    \"cadet\"                                             -> \"cadEt\"\n",
"    \"caissiEre\"                                         -> \"cassiEre\"\n",
"    \"cake\"                                              -> \"keek\"\n",
"    \"cahier\"                                            -> \"cajE\"\n",
"    \"camouflage\"                                        -> \"camoeflaze\"\n"]

theorem lines18_ok : Part false lang macros vars (str "rewrite") lines18 (str "rewrite") := by
  apply piece_of
  · dsimp only [lines18]; repeat (first | exact .nil | apply Spells.cons)
  · decide +kernel

def lines19 : List String := [
"    \"campagne\"                                          -> \"campanje\"\n",
"    \"cantharel\"                                         -> \"cantarEl\"\n",
"    \"capuchon\"                                          -> \"capusjon\"\n",
"    \"cari%es\"                                           -> \"cariEs\"\n",
"    \"carillon\"                                          -> \"cariljon\"\n",
"    \"cashew\"                                            -> \"kesjoe\"\n",
"    \"cash\"                                              -> \"kesj\"\n",
"    \"castagnet\"                                         -> \"castanjet\"\n",
"    \"catheter\"                                          -> \"cateter\"\n",
"    \"^cees\"                                             -> \"kees\"\n"]

theorem lines19_ok : Part false lang macros vars (str "rewrite") lines19 (str "rewrite") := by
  apply piece_of
  · dsimp only [lines19]; repeat (first | exact .nil | apply Spells.cons)
  · decide +kernel

def lines20 : List String := [
"    \"chalet\"                                            -> \"sjalE\"\n",
"    \"champagne\"                                         -> \"sjampanje\"\n",
"    \"champignon\"                                        -> \"sjampinjon\"\n",
"    \"chantage\"                                          -> \"sjantaze\"\n",
"    \"chante{er|re}\"                                     -> \"sjante\"\n",
"    \"chaperon\"                                          -> \"sjaperon\"\n",
"    \"charcuterie\"                                       -> \"sjarcuterie\"\n",
"    \"charles\"                                           -> \"sjarl\"\n",
"    \"^charl\"                                            -> \"sjarl\"\n",
"    \"charmant\"                                          -> \"sjarmant\"\n"]

theorem lines20_ok : Part false lang macros vars (str "rewrite") lines20 (str "rewrite") := by
  apply piece_of
  · dsimp only [lines20]; repeat (first | exact .nil | apply Spells.cons)
  · decide +kernel

def lines21 : List String := [
"    \"chauffeur\"                                         -> \"sjoffeur\"\n",
"    \"cheque\"                                            -> \"sjEk\"\n",
"    \"cheryl\"                                            -> \"sjeryl\"\n",
"    \"chris\"                                             -> \"kris\"\n",
"    \"cologne\"                                           -> \"colonje\"\n",
"    \"compagn{i|y}\"                                      -> \"compan\"\n",
"    \"compagn\"                                           -> \"companj\"\n",
"    \"concertza{al|l}\"                                   -> \"concert-za\"\n",
"    \"conci%erge\"                                        -> \"conciErze\"\n",
"    \"concours\"                                          -> \"concoer\"\n"]

theorem lines21_ok : Part false lang macros vars (str "rewrite") lines21 (str "rewrite") := by
  apply piece_of
  · dsimp only [lines21]; repeat (first | exact .nil | apply Spells.cons)
  · decide +kernel

def lines22 : List String := [
"    \"concurrent\"                                        -> \"concurrEnt\"\n",
"    \"condens\"                                           -> \"condEns\"\n",
"    \"conferencier\"                                      -> \"conferangsiE\"\n",
"    \"conference\"                                        -> \"conferangs\"\n",
"    \"congres\"                                           -> \"conggrEs\"\n",
"    \"consequent\"                                        -> \"consequEnt\"\n",
"    \"consignatie\"                                       -> \"consinjatie\"\n",
"    \"contactlens\"                                       -> \"contactlEns\"\n",
"    \"container\"                                         -> \"conteener\"\n",
"    \"continue{er|r}\"                                    -> \"continu%e\"\n"]

theorem lines22_ok : Part false lang macros vars (str "rewrite") lines22 (str "rewrite") := by
  apply piece_of
  · dsimp only [lines22]; repeat (first | exact .nil | apply Spells.cons)
  · decide +kernel

def lines23 : List String := [
"    \"contour\"                                           -> \"contoer\"\n",
"    \"copyright\"                                         -> \"copyrajt\"\n",
"    \"cornedbeef\"                                        -> \"cornedbif\"\n",
"    \"corps\"                                             -> \"cor\"\n",
"    \"correct\"                                           -> \"corrEct\"\n",
"    \"corrige\"                                           -> \"corrize\"\n",
"    \"corsage\"                                           -> \"corsaze\"\n",
"    \"coulant\"                                           -> \"coelant\"\n",
"    \"coulisse\"                                          -> \"coelisse\"\n",
"    \"coup\"                                              -> \"coep\"\n"]

theorem lines23_ok : Part false lang macros vars (str "rewrite") lines23 (str "rewrite") := by
  apply piece_of
  · dsimp only [lines23]; repeat (first | exact .nil | apply Spells.cons)
  · decide +kernel

def lines24 : List String := [
"    \"courant\"                                           -> \"coerant\"\n",
"    \"coureur\"                                           -> \"coereur\"\n",
"    \"courgette\"                                         -> \"coerzette\"\n",
"    \"courtage\"                                          -> \"coertaze\"\n",
"    \"couture\"                                           -> \"coeture\"\n",
"    \"couturier\"                                         -> \"coeturiE\"\n",
"    \"couveuse\"                                          -> \"coeveuse\"\n",
"    \"cowboy\"                                            -> \"cauboy\"\n",
"    \"crash\"                                             -> \"crEsj\"\n",
"    \"crawl\"                                             -> \"crol\"\n"]

theorem lines24_ok : Part false lang macros vars (str "rewrite") lines24 (str "rewrite") := by
  apply piece_of
  · dsimp only [lines24]; repeat (first | exact .nil | apply Spells.cons)
  · decide +kernel

def lines25 : List String := [
"    \"crEche\"                                            -> \"crEsj\"\n",
"    \"crEme\"                                             -> \"crEm\"\n",
"    \"crime\"                                             -> \"crim\"\n",
"    \"croissant\"                                         -> \"croeassang\"\n",
"    \"croque\"                                            -> \"crok\"\n",
"    \"cursusjaar\"                                        -> \"cursusYjaar\"\n",
"    \"damhert\"                                           -> \"damhErt\"\n",
"    \"daniel\"                                            -> \"daniEl\"\n",
"    \"dani%el\"                                           -> \"daniEl\"\n",
"    \"dashboard\"                                         -> \"desjbord\"\n"]

theorem lines25_ok : Part false lang macros vars (str "rewrite") lines25 (str "rewrite") := by
  apply piece_of
  · dsimp only [lines25]; repeat (first | exact .nil | apply Spells.cons)
  · decide +kernel

def lines26 : List String := [
"    \"davidster\"                                         -> \"davit,ster\"\n",
"    \"debet\"                                             -> \"debEt\"\n",
"    \"decadent\"                                          -> \"decadEnt\"\n",
"    \"decibel\"                                           -> \"decibEl\"\n",
"    \"defect\"                                            -> \"defEct\"\n",
"    \"depot$\"                                            -> \"depo\"\n",
"    \"depots\"                                            -> \"depos\"\n",
"    \"dessert\"                                           -> \"dessEr\"\n",
"    \"dessin\"                                            -> \"dessEng\"\n",
"    \"detaillist\"                                        -> \"detajist\"\n"]

theorem lines26_ok : Part false lang macros vars (str "rewrite") lines26 (str "rewrite") := by
  apply piece_of
  · dsimp only [lines26]; repeat (first | exact .nil | apply Spells.cons)
  · decide +kernel

def lines27 : List String := [
"    \"detail\"                                            -> \"detaj\"\n",
"    \"detective\"                                         -> \"ditectiv\"\n",
"    \"diligence\"                                         -> \"dilizangce\"\n",
"    \"direct\"                                            -> \"dirEct\"\n",
"    \"discothe\"                                          -> \"discote\"\n",
"    \"discretie\"                                         -> \"discreti\"\n",
"    \"display\"                                           -> \"displey\"\n",
"    \"divers\"                                            -> \"divErs\"\n",
"    \"dividend\"                                          -> \"dividEnd\"\n",
"    \"doodstraf\"                                         -> \"dood%straf\"\n"]

theorem lines27_ok : Part false lang macros vars (str "rewrite") lines27 (str "rewrite") := by
  apply piece_of
  · dsimp only [lines27]; repeat (first | exact .nil | apply Spells.cons)
  · decide +kernel

def lines28 : List String := [
"    \"doodziek\"                                          -> \"dood%ziek\"\n",
"    \"doodzonde\"                                         -> \"dood%zonde\"\n",
"    \"doroth\"                                            -> \"dorot\"\n",
"    \"dossier\"                                           -> \"dossiE\"\n",
"    \"douan{e|i}\"                                        -> \"doean\"\n",
"    \"doubl\"                                             -> \"doebl\"\n",
"    \"douche$\"                                           -> \"doesj\"\n",
"    \"douche\"                                            -> \"doesje\"\n",
"    \"drenthe\"                                           -> \"drente\"\n",
"    \"drinkyoghurt\"                                      -> \"drinkYJoghurt\"\n"]

theorem lines28_ok : Part false lang macros vars (str "rewrite") lines28 (str "rewrite") := by
  apply piece_of
  · dsimp only [lines28]; repeat (first | exact .nil | apply Spells.cons)
  · decide +kernel

def lines29 : List String := [
"    \"drukpers\"                                          -> \"drukpErs\"\n",
"    \"drumstel\"                                          -> \"drumstEl\"\n",
"    \"^dumas$\"                                           -> \"duma\"\n",
"    \"dyk\"                                               -> \"dijk\"\n",
"    \"eerhestel\"                                         -> \"eerhestEl\"\n",
"    \"effect\"                                            -> \"effEct\"\n",
"    \"eicel\"                                             -> \"eicEl\"\n",
"    \"eindhoven\"                                         -> \"einthoven\"\n",
"    \"elektricien\"                                       -> \"elektriciEng\"\n",
"    \"^eljero\"                                           -> \"elzero\"\n"]

theorem lines29_ok : Part false lang macros vars (str "rewrite") lines29 (str "rewrite") := by
  apply piece_of
  · dsimp only [lines29]; repeat (first | exact .nil | apply Spells.cons)
  · decide +kernel

def lines30 : List String := [
"    \"employE\"                                           -> \"amploeajE\"\n",
"    \"enschede\"                                          -> \"enschedE\"\n",
"    \"ernst\"                                             -> \"Ernst\"\n",
"    \"erwt\"                                              -> \"Ert\"\n",
"    \"esther\"                                            -> \"ester\"\n",
"    \"etage\"                                             -> \"etaze\"\n",
"    \"etalage\"                                           -> \"etalaze\"\n",
"    \"ether\"                                             -> \"eter\"\n",
"    \"ethiek\"                                            -> \"etiek\"\n",
"    \"ethiop\"                                            -> \"etiop\"\n"]

theorem lines30_ok : Part false lang macros vars (str "rewrite") lines30 (str "rewrite") := by
  apply piece_of
  · dsimp only [lines30]; repeat (first | exact .nil | apply Spells.cons)
  · decide +kernel

def lines31 : List String := [
"    \"ethisch\"                                           -> \"etisch\"\n",
"    \"eugene\"                                            -> \"euzEn\"\n",
"    \"eurocent\"                                          -> \"eurocEnt\"\n",
"    \"euthanas\"                                          -> \"eutanas\"\n",
"    \"evacue{er|r}\"                                      -> \"evacu%e\"\n",
"    \"evangel\"                                           -> \"evanggel\"\n",
"    \"evengoed\"                                          -> \"even-goed\"\n",
"    \"examengeld\"                                        -> \"examen-gEld\"\n",
"    \"exces\"                                             -> \"excEs\"\n",
"    \"{~@}ex\"                                            -> \"Ex\"\n"]

theorem lines31_ok : Part false lang macros vars (str "rewrite") lines31 (str "rewrite") := by
  apply piece_of
  · dsimp only [lines31]; repeat (first | exact .nil | apply Spells.cons)
  · decide +kernel

def lines32 : List String := [
"    \"floret\"                                            -> \"florEt\"\n",
"    \"foetus\"                                            -> \"feutus\"\n",
"    \"forel\"                                             -> \"forEl\"\n",
"    \"forfait\"                                           -> \"forfE\"\n",
"    \"fokstier\"                                          -> \"fokstir\"\n",
"    \"formulier\"                                         -> \"formulir\"\n",
"    \"foyer\"                                             -> \"foeajE\"\n",
"    \"franchise\"                                         -> \"fransjize\"\n",
"    \"frangipane\"                                        -> \"frangzipane\"\n",
"    \"freak\"                                             -> \"fri-k\"\n"]

theorem lines32_ok : Part false lang macros vars (str "rewrite") lines32 (str "rewrite") := by
  apply piece_of
  · dsimp only [lines32]; repeat (first | exact .nil | apply Spells.cons)
  · decide +kernel

end Verif.Specs.Nld
