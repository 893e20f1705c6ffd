import Verif.Specs.NldHead

/-! specs/nld.hsl, part 6, generated by tools/gen_specs.py. -/

set_option Elab.async false

namespace Verif.Specs.Nld

open Hsl

def lines81 : List String := [
"    \"Lubbers\"                                 -> \"뤼버르스\"\n",
"    \"Enschede\"                                -> \"엔스헤데\"\n",
"    \"Lamoraal van Egmont\"                     -> \"라모랄 판에흐몬트\"\n",
"    \"Doetinchem\"                              -> \"두틴험\"\n",
"    \"Adriaen van Ostade\"                      -> \"아드리안 판오스타더\"\n",
"    \"Delft Stedelijk\"                         -> \"델프트 스테델레이크\"\n",
"    \"Koudekerke\"                              -> \"카우데케르커\"\n",
"    \"Peper\"                                   -> \"페퍼르\"\n",
"    \"Eenrum\"                                  -> \"에인륌\"\n",
"    \"Zutphan\"                                 -> \"쥣판\"\n",
"    \"Oenkerk\"                                 -> \"웅커르크\"\n",
"    \"politie\"                                 -> \"폴리시\"\n",
"    \"kwellen\"                                 -> \"크벨런\"\n",
"    \"Oost-Vlieland\"                           -> \"오스트플릴란트\"\n",
"    \"Gouda\"                                   -> \"하우다\"\n",
"    \"Haarlem\"                                 -> \"하를럼\"\n",
"    \"Raalte\"                                  -> \"랄터\"\n",
"    \"Adriaan Willaert\"                        -> \"아드리안 빌라르트\"\n",
"    \"Wonschoten\"                              -> \"본스호턴\"\n",
"    \"Esther Vergeer\"                          -> \"에스터르 페르헤이르\"\n",
"    \"Hoogeveen\"                               -> \"호헤베인\"\n",
"    \"Hoogerheide\"                             -> \"호헤르헤이더\"\n",
"    \"Theo van Doesburg\"                       -> \"테오 판두스뷔르흐\"\n",
"    \"Maarten van der Weijden\"                 -> \"마르턴 판데르베이던\"\n",
"    \"Naomi van As\"                            -> \"나오미 판아스\"\n",
"    \"Wit\"                                     -> \"빗\"\n",
"    \"Elfstedentocht\"                          -> \"엘프스테덴토흐트\"\n",
"    \"kwaliteit\"                               -> \"크발리테이트\"\n",
"    \"Armin van Buuren\"                        -> \"아르민 판뷔런\"\n",
"    \"Beets\"                                   -> \"베이츠\"\n",
"    \"Mondriaan\"                               -> \"몬드리안\"\n",
"    \"Yuri van Gelder\"                         -> \"유리 판헬더르\"\n",
"    \"Escher\"                                  -> \"에스허르\"\n",
"    \"Valkenswaard\"                            -> \"팔켄스바르트\"\n",
"    \"Beatrix Wilhelmina Armgard\"              -> \"베아트릭스 빌헬미나 아름하르트\"\n",
"    \"Hardenberg\"                              -> \"하르덴베르흐\"\n",
"    \"Hiddink\"                                 -> \"히딩크\"\n",
"    \"IJssel\"                                  -> \"에이설\"\n",
"    \"Hooch\"                                   -> \"호흐\"\n",
"    \"Jan Steen\"                               -> \"얀 스테인\"\n",
"    \"Amstelveen\"                              -> \"암스텔베인\"\n",
"    \"Wim\"                                     -> \"빔\"\n",
"    \"Spinoza\"                                 -> \"스피노자\"\n",
"    \"ramsj\"                                   -> \"람시\"\n",
"    \"tachtig\"                                 -> \"타흐터흐\"\n",
"    \"Wageningen\"                              -> \"바헤닝언\"\n"]

theorem lines81_ok : Part false lang macros vars (str "test") lines81 (str "test") := by
  apply piece_of
  · dsimp only [lines81]; repeat (first | exact .nil | apply Spells.cons)
  · decide +kernel

end Verif.Specs.Nld
