import Verif.Specs.NldHead

/-! specs/nld.hsl, part 3, generated by tools/gen_specs.py. -/

set_option Elab.async false

namespace Verif.Specs.Nld

open Hsl

def lines33 : List String := [
"    \"freelancer\"                                        -> \"frilangcer\"\n",
"    \"freelance\"                                         -> \"frilangs\"\n",
"    \"freudia\"                                           -> \"froidia\"\n",
"    \"frikadel\"                                          -> \"frikadEl\"\n",
"    \"frou-frou\"                                         -> \"froe-froe\"\n",
"    \"fulltime\"                                          -> \"foeltajm\"\n",
"    \"funest\"                                            -> \"funEst\"\n",
"    \"gabriel\"                                           -> \"GabriEl\"\n",
"    \"gabri%el\"                                          -> \"GabriEl\"\n",
"    \"^game$\"                                            -> \"Geem\"\n"]

theorem lines33_ok : Part false lang macros vars (str "rewrite") lines33 (str "rewrite") := by
  apply piece_of
  · dsimp only [lines33]; repeat (first | exact .nil | apply Spells.cons)
  · decide +kernel

def lines34 : List String := [
"    \"^games$\"                                           -> \"Geems\"\n",
"    \"gameboy\"                                           -> \"Geemboy\"\n",
"    \"gebrek\"                                            -> \"gebrEk\"\n",
"    \"gelukwens\"                                         -> \"gelukwEns\"\n",
"    \"gemenebest\"                                        -> \"gemenebEst\"\n",
"    \"gemengd\"                                           -> \"gemEngd\"\n",
"    \"gEnant\"                                            -> \"zEnant\"\n",
"    \"gendarme\"                                          -> \"zangdarme\"\n",
"    \"genEve\"                                            -> \"zenEve\"\n",
"    \"genie$\"                                            -> \"zenie\"\n"]

theorem lines34_ok : Part false lang macros vars (str "rewrite") lines34 (str "rewrite") := by
  apply piece_of
  · dsimp only [lines34]; repeat (first | exact .nil | apply Spells.cons)
  · decide +kernel

def lines35 : List String := [
"    \"genie{%en|tj}\"                                     -> \"zenie\"\n",
"    \"genre\"                                             -> \"zangrY\"\n",
"    \"^giovan\"                                           -> \"zovan\"\n",
"    \"gogh\"                                              -> \"Gogh\"\n",
"    \"grens\"                                             -> \"grEns\"\n",
"    \"greth{a|e}\"                                        -> \"gret\"\n",
"    \"^guido\"                                            -> \"gido\"\n",
"    \"^hamel\"                                            -> \"hamEl\"\n",
"    \"hef\"                                               -> \"hEf\"\n",
"    \"hek\"                                               -> \"hEk\"\n"]

theorem lines35_ok : Part false lang macros vars (str "rewrite") lines35 (str "rewrite") := by
  apply piece_of
  · dsimp only [lines35]; repeat (first | exact .nil | apply Spells.cons)
  · decide +kernel

def lines36 : List String := [
"    \"hengst\"                                            -> \"hEngst\"\n",
"    \"ijssel\"                                            -> \"ijssQl\"\n",
"    \"israel\"                                            -> \"israEl\"\n",
"    \"isra%el\"                                           -> \"israEl\"\n",
"    \"jacques\"                                           -> \"zaak\"\n",
"    \"jeanette\"                                          -> \"zaanEt\"\n",
"    \"jeanet\"                                            -> \"zaanEt\"\n",
"    \"jeanne$\"                                           -> \"zaan\"\n",
"    \"jockey\"                                            -> \"zoki\"\n",
"    \"johannes\"                                          -> \"johannEs\"\n"]

theorem lines36_ok : Part false lang macros vars (str "rewrite") lines36 (str "rewrite") := by
  apply piece_of
  · dsimp only [lines36]; repeat (first | exact .nil | apply Spells.cons)
  · decide +kernel

def lines37 : List String := [
"    \"^john$\"                                            -> \"zon\"\n",
"    \"jozef\"                                             -> \"jozEf\"\n",
"    \"^beken\"                                            -> \"bekEn\"\n",
"    \"beken{d|t}\"                                        -> \"bekEn\"\n",
"    \"^erken\"                                            -> \"erkEn\"\n",
"    \"erken{d|t}\"                                        -> \"erkEn\"\n",
"    \"^herken\"                                           -> \"herkEn\"\n",
"    \"^ontken\"                                           -> \"ontkEn\"\n",
"    \"ontken{d|t}\"                                       -> \"ontkEn\"\n",
"    \"^toeken\"                                           -> \"toekEn\"\n"]

theorem lines37_ok : Part false lang macros vars (str "rewrite") lines37 (str "rewrite") := by
  apply piece_of
  · dsimp only [lines37]; repeat (first | exact .nil | apply Spells.cons)
  · decide +kernel

def lines38 : List String := [
"    \"toeken{d|t}\"                                       -> \"toekEn\"\n",
"    \"^verken\"                                           -> \"verkEn\"\n",
"    \"klem{d|t}\"                                         -> \"klEm\"\n",
"    \"korthal\"                                           -> \"kortal\"\n",
"    \"leg{d|t}\"                                          -> \"lEg\"\n",
"    \"lingerie\"                                          -> \"lengzerie\"\n",
"    \"lingu%ist\"                                         -> \"linggu%ist\"\n",
"    \"^louis$\"                                           -> \"loei\"\n",
"    \"^louis\"                                            -> \"loeis\"\n",
"    \"lyonnet\"                                           -> \"lyonnE\"\n"]

theorem lines38_ok : Part false lang macros vars (str "rewrite") lines38 (str "rewrite") := by
  apply piece_of
  · dsimp only [lines38]; repeat (first | exact .nil | apply Spells.cons)
  · decide +kernel

def lines39 : List String := [
"    \"manuel\"                                            -> \"manuEl\"\n",
"    \"^margot$\"                                          -> \"margo\"\n",
"    \"^mari%e\"                                           -> \"mariE\"\n",
"    \"marth\"                                             -> \"mart\"\n",
"    \"^mary$\"                                            -> \"mery\"\n",
"    \"mathild\"                                           -> \"matild\"\n",
"    \"melk\"                                              -> \"mElk\"\n",
"    \"merk\"                                              -> \"mErk\"\n",
"    \"michael\"                                           -> \"mikaEl\"\n",
"    \"micha%el\"                                          -> \"mikaEl\"\n"]

theorem lines39_ok : Part false lang macros vars (str "rewrite") lines39 (str "rewrite") := by
  apply piece_of
  · dsimp only [lines39]; repeat (first | exact .nil | apply Spells.cons)
  · decide +kernel

def lines40 : List String := [
"    \"^michel$\"                                          -> \"misjEl\"\n",
"    \"michi%el\"                                          -> \"mikiEl\"\n",
"    \"model\"                                             -> \"modEl\"\n",
"    \"monsieur\"                                          -> \"mQsieu\"\n",
"    \"nerf\"                                              -> \"nErf\"\n",
"    \"^nigel\"                                            -> \"naizel\"\n",
"    \"^no%e\"                                             -> \"noE\"\n",
"    \"ongerust\"                                          -> \"onggerust\"\n",
"    \"orkest\"                                            -> \"orkEst\"\n",
"    \"pech\"                                              -> \"pEch\"\n"]

theorem lines40_ok : Part false lang macros vars (str "rewrite") lines40 (str "rewrite") := by
  apply piece_of
  · dsimp only [lines40]; repeat (first | exact .nil | apply Spells.cons)
  · decide +kernel

def lines41 : List String := [
"    \"persoonsbed\"                                       -> \"persoonsbEd\"\n",
"    \"pierre\"                                            -> \"piEr\"\n",
"    \"pincher\"                                           -> \"pinsjer\"\n",
"    \"posthum\"                                           -> \"postum\"\n",
"    \"rafael\"                                            -> \"rafaEl\"\n",
"    \"rafa%el\"                                           -> \"rafaEl\"\n",
"    \"recept\"                                            -> \"recEpt\"\n",
"    \"reinier\"                                           -> \"reini%er\"\n",
"    \"rhijn\"                                             -> \"rijn\"\n",
"    \"richard\"                                           -> \"rikard\"\n"]

theorem lines41_ok : Part false lang macros vars (str "rewrite") lines41 (str "rewrite") := by
  apply piece_of
  · dsimp only [lines41]; repeat (first | exact .nil | apply Spells.cons)
  · decide +kernel

def lines42 : List String := [
"    \"rogier\"                                            -> \"rogi%er\"\n",
"    \"ryan\"                                              -> \"raien\"\n",
"    \"scherm\"                                            -> \"schErm\"\n",
"    \"sharon\"                                            -> \"sjaron\"\n",
"    \"spel\"                                              -> \"spEl\"\n",
"    \"spionage\"                                          -> \"spionaze\"\n",
"    \"streng\"                                            -> \"strEng\"\n",
"    \"student\"                                           -> \"studEnt\"\n",
"    \"term\"                                              -> \"tErm\"\n",
"    \"the{a|o}\"                                          -> \"te\"\n"]

theorem lines42_ok : Part false lang macros vars (str "rewrite") lines42 (str "rewrite") := by
  apply piece_of
  · dsimp only [lines42]; repeat (first | exact .nil | apply Spells.cons)
  · decide +kernel

def lines43 : List String := [
"    \"thierry\"                                           -> \"tiErry\"\n",
"    \"thijs\"                                             -> \"tijs\"\n",
"    \"thys\"                                              -> \"tys\"\n",
"    \"timoth\"                                            -> \"timot\"\n",
"    \"toilette\"                                          -> \"toealEt\"\n",
"    \"toilet\"                                            -> \"toealEt\"\n",
"    \"tref\"                                              -> \"trEf\"\n",
"    \"trek\"                                              -> \"trEk\"\n",
"    \"van{}Gogh\"                                         -> \"wan{}Gogh\"\n",
"    \"vel{d|t}\"                                          -> \"vEl\"\n"]

theorem lines43_ok : Part false lang macros vars (str "rewrite") lines43 (str "rewrite") := by
  apply piece_of
  · dsimp only [lines43]; repeat (first | exact .nil | apply Spells.cons)
  · decide +kernel

def lines44 : List String := [
"    \"vEldhoven\"                                         -> \"vEld{}hoven\"\n",
"    \"^vera$\"                                            -> \"wera\"\n",
"    \"veroni\"                                            -> \"weroni\"\n",
"    \"victor\"                                            -> \"wictor\"\n",
"    \"vincent\"                                           -> \"wincEnt\"\n",
"    \"viol\"                                              -> \"wiol\"\n",
"    \"vlek\"                                              -> \"vlEk\"\n",
"    \"weg\"                                               -> \"wEg\"\n",
"    \"wenst\"                                             -> \"wEnst\"\n",
"    \"^wens\"                                             -> \"wEns\"\n"]

theorem lines44_ok : Part false lang macros vars (str "rewrite") lines44 (str "rewrite") := by
  apply piece_of
  · dsimp only [lines44]; repeat (first | exact .nil | apply Spells.cons)
  · decide +kernel

def lines45 : List String := [
"    \"werk\"                                              -> \"wErk\"\n",
"    \"wesley\"                                            -> \"wesly\"\n",
"    \"wet\"                                               -> \"wEt\"\n",
"    \"^wt\"                                               -> \"uwt\"\n",
"    \"zet\"                                               -> \"zEt\"\n",
"    \"szoon\"                                             -> \"s{}zoon\"\n",
"    \"echt\"                                              -> \"Echt\"\n",
"    \"egd\"                                               -> \"Egd\"\n",
"    \"ent\"                                               -> \"Ent\"\n",
"    \"eau\"                                               -> \"o\"\n"]

theorem lines45_ok : Part false lang macros vars (str "rewrite") lines45 (str "rewrite") := by
  apply piece_of
  · dsimp only [lines45]; repeat (first | exact .nil | apply Spells.cons)
  · decide +kernel

def lines46 : List String := [
"    \"%e{l|ls|t|ts|tt|tts$}\"                             -> \"E\"\n",
"    \"air\"                                               -> \"Er\"\n",
"    \"oir$\"                                              -> \"oear\"\n",
"    \"^ti\"                                               -> \"tiF\"\n",
"    \"tie{f|k}\"                                          -> \"ti\"\n",
"    \"tie$\"                                              -> \"sie\"\n",
"    \"tieus\"                                             -> \"sieus\"\n",
"    \"{n|r}tie$\"                                         -> \"sie\"\n",
"    \"ti{eel|%el}\"                                       -> \"si\"\n",
"    \"ti{aal|al}\"                                        -> \"si\"\n"]

theorem lines46_ok : Part false lang macros vars (str "rewrite") lines46 (str "rewrite") := by
  apply piece_of
  · dsimp only [lines46]; repeat (first | exact .nil | apply Spells.cons)
  · decide +kernel

def lines47 : List String := [
"    \"tion$\"                                             -> \"sjon\"\n",
"    \"tion{eel|%el}\"                                     -> \"sjon\"\n",
"    \"tione{er|r}\"                                       -> \"sjone\"\n",
"    \"tion{ne|s}\"                                        -> \"sjon\"\n",
"    \"tium\"                                              -> \"sium\"\n",
"    \"F\"                                                 -> \"\"\n",
"    \"{<cs>}ig$\"                                         -> \"Qg\"\n",
"    \"{<cs>}igd$\"                                        -> \"Qgd\"\n",
"    \"{<cs>}igde$\"                                       -> \"Qgde\"\n",
"    \"{<cs>}ige$\"                                        -> \"Qge\"\n"]

theorem lines47_ok : Part false lang macros vars (str "rewrite") lines47 (str "rewrite") := by
  apply piece_of
  · dsimp only [lines47]; repeat (first | exact .nil | apply Spells.cons)
  · decide +kernel

def lines48 : List String := [
"    \"{<cs>}igen$\"                                       -> \"Qgen\"\n",
"    \"{<cs>}igheid$\"                                     -> \"Qgheid\"\n",
"    \"{<cs>}iging$\"                                      -> \"Qging\"\n",
"    \"^over\"                                             -> \"ovQr\"\n",
"    \"sch{@}\"                                            -> \"sX\"\n",
"    \"sch\"                                               -> \"s\"\n",
"    \"ch\"                                                -> \"X\"\n",
"    \"c{e|E|i|y}\"                                        -> \"s\"\n",
"    \"c\"                                                 -> \"k\"\n",
"    \"qq\"                                                -> \"q\"\n"]

theorem lines48_ok : Part false lang macros vars (str "rewrite") lines48 (str "rewrite") := by
  apply piece_of
  · dsimp only [lines48]; repeat (first | exact .nil | apply Spells.cons)
  · decide +kernel

end Verif.Specs.Nld
