import Verif.Specs.NldHead

/-! specs/nld.hsl, part 1, generated by tools/gen_specs.py. -/

set_option Elab.async false

namespace Verif.Specs.Nld

open Hsl

def lines1 : List String := [
"rewrite:\n",
"    \"’\"                                                 -> \"'\"\n",
"    \" aan \"                                             -> \"{}aan{}\"\n",
"    \"^aan \"                                             -> \"aan{}\"\n",
"    \" bij \"                                             -> \"{}bij{}\"\n",
"    \"^bij \"                                             -> \"bij{}\"\n",
"    \" boven \"                                           -> \"{}boven{}\"\n",
"    \"^boven \"                                           -> \"boven{}\"\n",
"    \" en \"                                              -> \"{}en{}\"\n",
"    \"^en \"                                              -> \"en{}\"\n",
"    \" in \"                                              -> \"{}in{}\"\n"]

theorem lines1_ok : Part false lang macros vars (str "normalize") lines1 (str "rewrite") := by
  apply piece_of
  · dsimp only [lines1]; repeat (first | exact .nil | apply Spells.cons)
  · decide +kernel

def lines2 : List String := [
"    \"^in \"                                              -> \"in{}\"\n",
"    \" op \"                                              -> \"{}op{}\"\n",
"    \"^op \"                                              -> \"op{}\"\n",
"    \" over \"                                            -> \"{}over{}\"\n",
"    \"^over \"                                            -> \"over{}\"\n",
"    \" of \"                                              -> \"{}of{}\"\n",
"    \"^de \"                                              -> \"de{}\"\n",
"    \"^den \"                                             -> \"den{}\"\n",
"    \"^der \"                                             -> \"der{}\"\n",
"    \"^des \"                                             -> \"des{}\"\n"]

theorem lines2_ok : Part false lang macros vars (str "rewrite") lines2 (str "rewrite") := by
  apply piece_of
  · dsimp only [lines2]; repeat (first | exact .nil | apply Spells.cons)
  · decide +kernel

def lines3 : List String := [
"    \"^di \"                                              -> \"di{}\"\n",
"    \"^het \"                                             -> \"het{}\"\n",
"    \"^onder \"                                           -> \"onder{}\"\n",
"    \"^sint \"                                            -> \"sint{}\"\n",
"    \"^te \"                                              -> \"te{}\"\n",
"    \"^ten \"                                             -> \"ten{}\"\n",
"    \"^ter \"                                             -> \"ter{}\"\n",
"    \"^thoe \"                                            -> \"thoe{}\"\n",
"    \"^tot \"                                             -> \"tot{}\"\n",
"    \"^uit \"                                             -> \"uit{}\"\n"]

theorem lines3_ok : Part false lang macros vars (str "rewrite") lines3 (str "rewrite") := by
  apply piece_of
  · dsimp only [lines3]; repeat (first | exact .nil | apply Spells.cons)
  · decide +kernel

def lines4 : List String := [
"    \"^uijt \"                                            -> \"uijt{}\"\n",
"    \"^van \"                                             -> \"van{}\"\n",
"    \"^ver \"                                             -> \"ver{}\"\n",
"    \"^voor \"                                            -> \"voor{}\"\n",
"    \"-\"                                                 -> \"{}\"\n",
"    \"^'s \"                                              -> \"s{}\"\n",
"    \"^'t \"                                              -> \"Qt,{}\"\n",
"    \"^'t\"                                               -> \"Qt,\"\n",
"    \"hoek van{}holland\"                                 -> \"hoek{}van{}holland\"\n",
"    \"hof van{}twente\"                                   -> \"hof{}van{}twente\"\n"]

theorem lines4_ok : Part false lang macros vars (str "rewrite") lines4 (str "rewrite") := by
  apply piece_of
  · dsimp only [lines4]; repeat (first | exact .nil | apply Spells.cons)
  · decide +kernel

def lines5 : List String := [
"    \"ronde venen\"                                       -> \"ronde{}venen\"\n",
"    \"^midden \"                                          -> \"midden{}\"\n",
"    \"^neder \"                                           -> \"neder{}\"\n",
"    \"^nieuw \"                                           -> \"nieuw{}\"\n",
"    \"^nieuwe \"                                          -> \"nieuwe{}\"\n",
"    \"^noord \"                                           -> \"noord{}\"\n",
"    \"^oost \"                                            -> \"oost{}\"\n",
"    \"^west \"                                            -> \"west{}\"\n",
"    \"^zuid \"                                            -> \"zuid{}\"\n",
"    \"aimé\"                                              -> \"emé\"\n"]

theorem lines5_ok : Part false lang macros vars (str "rewrite") lines5 (str "rewrite") := by
  apply piece_of
  · dsimp only [lines5]; repeat (first | exact .nil | apply Spells.cons)
  · decide +kernel

def lines6 : List String := [
"    \"curaçao\"                                           -> \"curaso\"\n",
"    \"curacao\"                                           -> \"curaso\"\n",
"    \"française\"                                         -> \"frangsEzY\"\n",
"    \"francaise\"                                         -> \"frangsEzY\"\n",
"    \"français\"                                          -> \"frangsE\"\n",
"    \"francais\"                                          -> \"frangsE\"\n",
"    \"françoise\"                                         -> \"frangsoeazY\"\n",
"    \"francoise\"                                         -> \"frangsoeazY\"\n",
"    \"françois\"                                          -> \"frangsoea\"\n",
"    \"francois\"                                          -> \"frangsoea\"\n"]

theorem lines6_ok : Part false lang macros vars (str "rewrite") lines6 (str "rewrite") := by
  apply piece_of
  · dsimp only [lines6]; repeat (first | exact .nil | apply Spells.cons)
  · decide +kernel

def lines7 : List String := [
"    \"ç\"                                                 -> \"s\"\n",
"    \"{@}ä{@}\"                                           -> \"%a%\"\n",
"    \"{@}ä\"                                              -> \"%a\"\n",
"    \"ä{@}\"                                              -> \"a%\"\n",
"    \"ä\"                                                 -> \"e\"\n",
"    \"{@}ë{@}\"                                           -> \"%e%\"\n",
"    \"{@}ë\"                                              -> \"%e\"\n",
"    \"ë{@}\"                                              -> \"e%\"\n",
"    \"ë\"                                                 -> \"E\"\n",
"    \"ée\"                                                -> \"ee\"\n"]

theorem lines7_ok : Part false lang macros vars (str "rewrite") lines7 (str "rewrite") := by
  apply piece_of
  · dsimp only [lines7]; repeat (first | exact .nil | apply Spells.cons)
  · decide +kernel

def lines8 : List String := [
"    \"é\"                                                 -> \"E\"\n",
"    \"{@}ï{@}\"                                           -> \"%i%\"\n",
"    \"{@}ï\"                                              -> \"%i\"\n",
"    \"ï{@}\"                                              -> \"i%\"\n",
"    \"ï\"                                                 -> \"i\"\n",
"    \"{@}ö{@}\"                                           -> \"%o%\"\n",
"    \"{@}ö\"                                              -> \"%o\"\n",
"    \"ö{@}\"                                              -> \"o%\"\n",
"    \"ö\"                                                 -> \"eu\"\n",
"    \"{@}ü{@}\"                                           -> \"%u%\"\n"]

theorem lines8_ok : Part false lang macros vars (str "rewrite") lines8 (str "rewrite") := by
  apply piece_of
  · dsimp only [lines8]; repeat (first | exact .nil | apply Spells.cons)
  · decide +kernel

def lines9 : List String := [
"    \"{@}ü\"                                              -> \"%u\"\n",
"    \"ü{@}\"                                              -> \"u%\"\n",
"    \"ü\"                                                 -> \"u\"\n",
"    \"{^<cs>}ig\"                                         -> \"igg\"\n",
"    \"{^<cs><cs>}ig\"                                     -> \"igg\"\n",
"    \"{^<cs><cs><cs>}ig\"                                 -> \"igg\"\n",
"    \"aalbes\"                                            -> \"aalbEs\"\n",
"    \"^aang\"                                             -> \"aan-g\"\n",
"    \"aapmens\"                                           -> \"aapmEns\"\n",
"    \"^abc$\"                                             -> \"abece\"\n"]

theorem lines9_ok : Part false lang macros vars (str "rewrite") lines9 (str "rewrite") := by
  apply piece_of
  · dsimp only [lines9]; repeat (first | exact .nil | apply Spells.cons)
  · decide +kernel

def lines10 : List String := [
"    \"adelbert\"                                          -> \"adelbErt\"\n",
"    \"ademtest\"                                          -> \"ademtEst\"\n",
"    \"adres\"                                             -> \"adrEs\"\n",
"    \"adrien\"                                            -> \"adriEn\"\n",
"    \"advocaat\"                                          -> \"aDvocaat\"\n",
"    \"aequo\"                                             -> \"equo\"\n",
"    \"aftershave\"                                        -> \"aftQrsjeev\"\n",
"    \"afvalrace\"                                         -> \"afvalrees\"\n",
"    \"agaath\"                                            -> \"agaat\"\n",
"    \"agath\"                                             -> \"agat\"\n"]

theorem lines10_ok : Part false lang macros vars (str "rewrite") lines10 (str "rewrite") := by
  apply piece_of
  · dsimp only [lines10]; repeat (first | exact .nil | apply Spells.cons)
  · decide +kernel

def lines11 : List String := [
"    \"ageeth\"                                            -> \"ageet\"\n",
"    \"ageth\"                                             -> \"aget\"\n",
"    \"^aim{e|ee}\"                                        -> \"em\"\n",
"    \"allerbest\"                                         -> \"allerbEst\"\n",
"    \"altsaxo\"                                           -> \"altYsaxo\"\n",
"    \"amanuens\"                                          -> \"amanu%ens\"\n",
"    \"amulet\"                                            -> \"amulEt\"\n",
"    \"ancien\"                                            -> \"anciEn\"\n",
"    \"andelst\"                                           -> \"andElst\"\n",
"    \"angina\"                                            -> \"anggina\"\n"]

theorem lines11_ok : Part false lang macros vars (str "rewrite") lines11 (str "rewrite") := by
  apply piece_of
  · dsimp only [lines11]; repeat (first | exact .nil | apply Spells.cons)
  · decide +kernel

def lines12 : List String := [
"    \"angli{c|st}\"                                       -> \"anggli\"\n",
"    \"angol{a|ees}\"                                      -> \"anggol\"\n",
"    \"anouk\"                                             -> \"anoek\"\n",
"    \"anthon\"                                            -> \"anton\"\n",
"    \"apothe{ek|k}\"                                      -> \"apote\"\n",
"    \"^apropos$\"                                         -> \"apropo\"\n",
"    \"^a propos$\"                                        -> \"apropo\"\n",
"    \"aquarel\"                                           -> \"aquarEl\"\n",
"    \"archipel\"                                          -> \"archipEl\"\n",
"    \"architect\"                                         -> \"architEct\"\n"]

theorem lines12_ok : Part false lang macros vars (str "rewrite") lines12 (str "rewrite") := by
  apply piece_of
  · dsimp only [lines12]; repeat (first | exact .nil | apply Spells.cons)
  · decide +kernel

def lines13 : List String := [
"    \"arrest\"                                            -> \"arrEst\"\n",
"    \"aspect\"                                            -> \"aspEct\"\n",
"    \"asbest\"                                            -> \"asbEst\"\n",
"    \"autorace\"                                          -> \"autorees\"\n",
"    \"baby\"                                              -> \"beeby\"\n",
"    \"badge\"                                             -> \"bezi\"\n",
"    \"badminton\"                                         -> \"bedminton\"\n",
"    \"bagage\"                                            -> \"bagaze\"\n",
"    \"bagatel\"                                           -> \"bagatEl\"\n",
"    \"bajonet\"                                           -> \"bajonEt\"\n"]

theorem lines13_ok : Part false lang macros vars (str "rewrite") lines13 (str "rewrite") := by
  apply piece_of
  · dsimp only [lines13]; repeat (first | exact .nil | apply Spells.cons)
  · decide +kernel

def lines14 : List String := [
"    \"^balpen\"                                           -> \"balpEn\"\n",
"    \"balth\"                                             -> \"balt\"\n",
"    \"banket\"                                            -> \"bankEt\"\n",
"    \"bankstel\"                                          -> \"bankstEl\"\n",
"    \"baret\"                                             -> \"barEt\"\n",
"    \"barkeep\"                                           -> \"barkip\"\n",
"    \"barones\"                                           -> \"baronEs\"\n",
"    \"barrage\"                                           -> \"barraze\"\n",
"    \"barthol\"                                           -> \"bartol\"\n",
"    \"baseball\"                                          -> \"beesbol\"\n"]

theorem lines14_ok : Part false lang macros vars (str "rewrite") lines14 (str "rewrite") := by
  apply piece_of
  · dsimp only [lines14]; repeat (first | exact .nil | apply Spells.cons)
  · decide +kernel

def lines15 : List String := [
"    \"bassin\"                                            -> \"bassEng\"\n",
"    \"beautycase\"                                        -> \"bJoetykees\"\n",
"    \"bed\"                                               -> \"bEd\"\n",
"    \"bEdekt\"                                            -> \"bedEkt\"\n",
"    \"beige\"                                             -> \"beize\"\n",
"    \"^beken\"                                            -> \"bekEn\"\n",
"    \"bekend\"                                            -> \"bekEnd\"\n",
"    \"berg\"                                              -> \"bErg\"\n",
"    \"besef\"                                             -> \"besEf\"\n",
"    \"besmet\"                                            -> \"besmEt\"\n"]

theorem lines15_ok : Part false lang macros vars (str "rewrite") lines15 (str "rewrite") := by
  apply piece_of
  · dsimp only [lines15]; repeat (first | exact .nil | apply Spells.cons)
  · decide +kernel

def lines16 : List String := [
"    \"beste{k|l|m}\"                                      -> \"bestE\"\n",
"    \"bevlek\"                                            -> \"bevlEk\"\n",
"    \"bijec\"                                             -> \"bi-jec\"\n",
"    \"bijou\"                                             -> \"bizoe\"\n",
"    \"biljet\"                                            -> \"biljEt\"\n",
"    \"bingo\"                                             -> \"bingGo\"\n",
"    \"biscuit\"                                           -> \"biscu%i\"\n",
"    \"bordes\"                                            -> \"bordEs\"\n",
"    \"bosbes\"                                            -> \"bosbEs\"\n",
"    \"boudier\"                                           -> \"boediE\"\n"]

theorem lines16_ok : Part false lang macros vars (str "rewrite") lines16 (str "rewrite") := by
  apply piece_of
  · dsimp only [lines16]; repeat (first | exact .nil | apply Spells.cons)
  · decide +kernel

end Verif.Specs.Nld
