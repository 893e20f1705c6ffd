import Verif.Proofs.Bundle

/-! specs/lat.hsl, generated by tools/gen_specs.py. -/

set_option Elab.async false

namespace Verif.Specs.Lat

open Hsl

/-- The language of the spec. -/
def lang : Language :=
  ⟨str "lat", (str "la", str "lat"), str "Latin", str "라틴어", str "Latn", []⟩

def macros : List (Bytes × Bytes) := [(str "@", str "<vowels>")]

def vars : List (Bytes × List Bytes) := [(str "so", [str "l", str "m", str "n", str "r"]),
  (str "vl", [str "c", str "f", str "p", str "s", str "t"]),
  (str "vowels", [str "a", str "e", str "ë", str "i", str "o", str "u", str "ü", str "y"])]

def keys : List (Rune × List Rune) := [(203, [235]),
  (198, [230]),
  (338, [339]),
  (220, [252])]

def kept : List Rune := [235, 230, 339, 252]

def head : List String := [
"lang:\n",
"    id      = \"lat\"\n",
"    codes   = \"la\", \"lat\"\n",
"    english = \"Latin\"\n",
"    korean  = \"라틴어\"\n",
"    script  = \"Latn\"\n",
"\n",
"config:\n",
"    author = \"Brian Jongseong Park <iceager@gmail.com>\"\n",
"    stage  = \"draft\"\n",
"\n",
"macros:\n",
"    \"@\" = \"<vowels>\"\n",
"\n",
"vars:\n",
"    \"so\"     = \"l\", \"m\", \"n\", \"r\"\n",
"    \"vl\"     = \"c\", \"f\", \"p\", \"s\", \"t\"\n",
"    \"vowels\" = \"a\", \"e\", \"ë\", \"i\", \"o\", \"u\", \"ü\", \"y\"\n",
"\n",
"normalize:\n",
"    \"ë\" = \"Ë\"\n",
"    \"æ\" = \"Æ\"\n",
"    \"œ\" = \"Œ\"\n",
"    \"ü\" = \"Ü\"\n",
"\n"]

theorem head_ok : ∃ xs, Reads [] (runes (text head)) xs (str "normalize") ∧ headOk lang macros vars keys kept xs = true := by
  apply piece_of
  · dsimp only [head]; repeat (first | exact .nil | apply Spells.cons)
  · decide +kernel

def lines1 : List String := [
"rewrite:\n",
"    \"æ\"          -> \"ae\"\n",
"    \"œ\"          -> \"oe\"\n",
"    \"maior\"      -> \"maJor\"\n",
"    \"traian\"     -> \"traJan\"\n",
"    \"{@}ë\"       -> \"%e\"\n",
"    \"ë\"          -> \"e\"\n",
"    \"ü{@}\"       -> \"u%\"\n",
"    \"ü\"          -> \"u\"\n",
"    \"jj\"         -> \"j\"\n",
"    \"^j{@}\"      -> \"J\"\n"]

theorem lines1_ok : Part true lang macros vars (str "normalize") lines1 (str "rewrite") := by
  apply piece_of
  · dsimp only [lines1]; repeat (first | exact .nil | apply Spells.cons)
  · decide +kernel

def lines2 : List String := [
"    \"{@}j{@}\"    -> \"J\"\n",
"    \"j\"          -> \"i\"\n",
"    \"^i{@}\"      -> \"J\"\n",
"    \"^iv{@}\"     -> \"iV\"\n",
"    \"^iv\"        -> \"Ju\"\n",
"    \"w\"          -> \"V\"\n",
"    \"qv{@}\"      -> \"qu\"\n",
"    \"qu{a|e|i}\"  -> \"cW\"\n",
"    \"q\"          -> \"c\"\n",
"    \"gu{a|e|i}\"  -> \"gW\"\n"]

theorem lines2_ok : Part true lang macros vars (str "rewrite") lines2 (str "rewrite") := by
  apply piece_of
  · dsimp only [lines2]; repeat (first | exact .nil | apply Spells.cons)
  · decide +kernel

def lines3 : List String := [
"    \"^u{@}\"      -> \"V\"\n",
"    \"^v{@}\"      -> \"V\"\n",
"    \"{@}l\"       -> \"lQ\"\n",
"    \"{@}m\"       -> \"mQ\"\n",
"    \"{@}n\"       -> \"nQ\"\n",
"    \"{@}r\"       -> \"rQ\"\n",
"    \"{@|Q}u{@}\"  -> \"V\"\n",
"    \"{@|Q}v{@}\"  -> \"V\"\n",
"    \"Q\"          -> \"\"\n",
"    \"vv{@}\"      -> \"uV\"\n"]

theorem lines3_ok : Part true lang macros vars (str "rewrite") lines3 (str "rewrite") := by
  apply piece_of
  · dsimp only [lines3]; repeat (first | exact .nil | apply Spells.cons)
  · decide +kernel

def lines4 : List String := [
"    \"v\"          -> \"u\"\n",
"    \"y\"          -> \"i\"\n",
"    \"{a|o}e\"     -> \"i\"\n",
"    \"bb\"         -> \"b\"\n",
"    \"k\"          -> \"c\"\n",
"    \"xx\"         -> \"x\"\n",
"    \"x\"          -> \"cs\"\n",
"    \"cc\"         -> \"c\"\n",
"    \"dd\"         -> \"d\"\n",
"    \"ff\"         -> \"f\"\n"]

theorem lines4_ok : Part true lang macros vars (str "rewrite") lines4 (str "rewrite") := by
  apply piece_of
  · dsimp only [lines4]; repeat (first | exact .nil | apply Spells.cons)
  · decide +kernel

def lines5 : List String := [
"    \"gg\"         -> \"g\"\n",
"    \"hh\"         -> \"h\"\n",
"    \"ll\"         -> \"l\"\n",
"    \"{@}mm{@}\"   -> \"m,m\"\n",
"    \"{@}nn{@}\"   -> \"n,n\"\n",
"    \"pp\"         -> \"p\"\n",
"    \"rr\"         -> \"r\"\n",
"    \"ss\"         -> \"s\"\n",
"    \"tt\"         -> \"t\"\n",
"    \"zz\"         -> \"z\"\n"]

theorem lines5_ok : Part true lang macros vars (str "rewrite") lines5 (str "rewrite") := by
  apply piece_of
  · dsimp only [lines5]; repeat (first | exact .nil | apply Spells.cons)
  · decide +kernel

def lines6 : List String := [
"    \"{c|p|t}h\"   -> \"\"\n",
"    \"n{c|g}\"     -> \"N\"\n",
"    \"{@}b{s|t}\"  -> \"p,\"\n",
"    \"{@}c{<vl>}\" -> \"c,\"\n",
"    \"{@}p{<vl>}\" -> \"p,\"\n",
"    \"^l\"         -> \"l;\"\n",
"    \"^m\"         -> \"m;\"\n",
"    \"^n\"         -> \"n;\"\n",
"    \"l$\"         -> \"l,\"\n",
"    \"m$\"         -> \"m,\"\n"]

theorem lines6_ok : Part true lang macros vars (str "rewrite") lines6 (str "rewrite") := by
  apply piece_of
  · dsimp only [lines6]; repeat (first | exact .nil | apply Spells.cons)
  · decide +kernel

def lines7 : List String := [
"    \"n$\"         -> \"n,\"\n",
"    \"l{@|m,|n,}\" -> \"l;\"\n",
"    \"{,}l\"       -> \"l;\"\n",
"    \"m{@}\"       -> \"m;\"\n",
"    \"n{@}\"       -> \"n;\"\n",
"    \"l\"          -> \"l,\"\n",
"    \"m\"          -> \"m,\"\n",
"    \"n\"          -> \"n,\"\n",
"    \",,\"         -> \",\"\n",
"    \",;\"         -> \"\"\n"]

theorem lines7_ok : Part true lang macros vars (str "rewrite") lines7 (str "rewrite") := by
  apply piece_of
  · dsimp only [lines7]; repeat (first | exact .nil | apply Spells.cons)
  · decide +kernel

def lines8 : List String := [
"    \",l,\"        -> \"l,\"\n",
"    \",m,\"        -> \"m,\"\n",
"    \",n,\"        -> \"n,\"\n",
"    \"l{m;|n;}\"   -> \"l,\"\n",
"    \";\"          -> \"\"\n",
"\n"]

theorem lines8_ok : Part true lang macros vars (str "rewrite") lines8 (str "rewrite") := by
  apply piece_of
  · dsimp only [lines8]; repeat (first | exact .nil | apply Spells.cons)
  · decide +kernel

def lines9 : List String := [
"transcribe:\n",
"    \"b\"    -> \"ㅂ\"\n",
"    \"c,\"   -> \"-ㄱ\"\n",
"    \"c\"    -> \"ㅋ\"\n",
"    \"d\"    -> \"ㄷ\"\n",
"    \"f\"    -> \"ㅍ\"\n",
"    \"g\"    -> \"ㄱ\"\n",
"    \"h\"    -> \"ㅎ\"\n",
"    \"^l\"   -> \"ㄹ\"\n",
"    \"{,}l\" -> \"ㄹ\"\n",
"    \"l,\"   -> \"-ㄹ\"\n"]

theorem lines9_ok : Part true lang macros vars (str "rewrite") lines9 (str "transcribe") := by
  apply piece_of
  · dsimp only [lines9]; repeat (first | exact .nil | apply Spells.cons)
  · decide +kernel

def lines10 : List String := [
"    \"l\"    -> \"-ㄹㄹ\"\n",
"    \"m,\"   -> \"-ㅁ\"\n",
"    \"m\"    -> \"ㅁ\"\n",
"    \"n,\"   -> \"-ㄴ\"\n",
"    \"n\"    -> \"ㄴ\"\n",
"    \"N\"    -> \"-ㅇ\"\n",
"    \"p,\"   -> \"-ㅂ\"\n",
"    \"p\"    -> \"ㅍ\"\n",
"    \"r\"    -> \"ㄹ\"\n",
"    \"s\"    -> \"ㅅ\"\n"]

theorem lines10_ok : Part true lang macros vars (str "transcribe") lines10 (str "transcribe") := by
  apply piece_of
  · dsimp only [lines10]; repeat (first | exact .nil | apply Spells.cons)
  · decide +kernel

def lines11 : List String := [
"    \"t\"    -> \"ㅌ\"\n",
"    \"V\"    -> \"ㅂ\"\n",
"    \"z\"    -> \"ㅈ\"\n",
"    \"Ja\"   -> \"ㅑ\"\n",
"    \"Je\"   -> \"ㅖ\"\n",
"    \"Ji\"   -> \"ㅣ\"\n",
"    \"Jo\"   -> \"ㅛ\"\n",
"    \"Ju\"   -> \"ㅠ\"\n",
"    \"Wa\"   -> \"ㅘ\"\n",
"    \"We\"   -> \"ㅞ\"\n"]

theorem lines11_ok : Part true lang macros vars (str "transcribe") lines11 (str "transcribe") := by
  apply piece_of
  · dsimp only [lines11]; repeat (first | exact .nil | apply Spells.cons)
  · decide +kernel

def lines12 : List String := [
"    \"Wi\"   -> \"ㅟ\"\n",
"    \"a\"    -> \"ㅏ\"\n",
"    \"e\"    -> \"ㅔ\"\n",
"    \"i\"    -> \"ㅣ\"\n",
"    \"o\"    -> \"ㅗ\"\n",
"    \"u\"    -> \"ㅜ\"\n",
"\n"]

theorem lines12_ok : Part true lang macros vars (str "transcribe") lines12 (str "transcribe") := by
  apply piece_of
  · dsimp only [lines12]; repeat (first | exact .nil | apply Spells.cons)
  · decide +kernel

def lines13 : List String := [
"test:\n",
"    \"Titus Maccius Plautus\"                        -> \"티투스 마키우스 플라우투스\"\n",
"    \"FLAVIVS VALERIVS AVRELIVS CONSTANTINVS\"       -> \"플라비우스 발레리우스 아우렐리우스 콘스탄티누스\"\n",
"    \"Iuno\"                                         -> \"유노\"\n",
"    \"PVBLIVS CORNELIVS TACITVS\"                    -> \"푸블리우스 코르넬리우스 타키투스\"\n",
"    \"consul\"                                       -> \"콘술\"\n",
"    \"Quintus Horatius Flaccus\"                     -> \"퀸투스 호라티우스 플라쿠스\"\n",
"    \"Lusitania\"                                    -> \"루시타니아\"\n",
"    \"GAIVS AVRELIVS VALERIVS DIOCLETIANVS\"         -> \"가이우스 아우렐리우스 발레리우스 디오클레티아누스\"\n",
"    \"Publius Aelius Hadrianus\"                     -> \"푸블리우스 아일리우스 하드리아누스\"\n",
"    \"Cyrus\"                                        -> \"키루스\"\n",
"    \"Commentarii de Bello Gallico\"                 -> \"콤멘타리이 데 벨로 갈리코\"\n",
"    \"GAIVS SVETONIVS TRANQVILLVS\"                  -> \"가이우스 수에토니우스 트랑퀼루스\"\n",
"    \"Apuleius\"                                     -> \"아풀레이우스\"\n",
"    \"Assyria\"                                      -> \"아시리아\"\n",
"    \"Marcus Antonius\"                              -> \"마르쿠스 안토니우스\"\n",
"    \"Lucius Cornelius Sulla Felix\"                 -> \"루키우스 코르넬리우스 술라 펠릭스\"\n",
"    \"GAIVS PLINIVS CAECILIVS SECVNDVS\"             -> \"가이우스 플리니우스 카이킬리우스 세쿤두스\"\n",
"    \"MARCVS VIPSANIVS AGRIPPA\"                     -> \"마르쿠스 빕사니우스 아그리파\"\n",
"    \"Minerva\"                                      -> \"미네르바\"\n",
"    \"Hannibal\"                                     -> \"한니발\"\n",
"    \"Georgius Agricola\"                            -> \"게오르기우스 아그리콜라\"\n",
"    \"Nicolaus Copernicus\"                          -> \"니콜라우스 코페르니쿠스\"\n",
"    \"GAIVS VALERIVS CATVLLVS\"                      -> \"가이우스 발레리우스 카툴루스\"\n",
"    \"Neptunus\"                                     -> \"넵투누스\"\n",
"    \"Britannia\"                                    -> \"브리탄니아\"\n",
"    \"Publius Cornelius Tacitus\"                    -> \"푸블리우스 코르넬리우스 타키투스\"\n",
"    \"senatus\"                                      -> \"세나투스\"\n",
"    \"Darius\"                                       -> \"다리우스\"\n",
"    \"Lucius Aurelius Commodus Antoninus\"           -> \"루키우스 아우렐리우스 콤모두스 안토니누스\"\n",
"    \"Metamorphoseon\"                               -> \"메타모르포세온\"\n",
"    \"Asia\"                                         -> \"아시아\"\n",
"    \"Gaius Valerius Catullus\"                      -> \"가이우스 발레리우스 카툴루스\"\n",
"    \"Marcus Licinius Crassus\"                      -> \"마르쿠스 리키니우스 크라수스\"\n",
"    \"Gaius Marius\"                                 -> \"가이우스 마리우스\"\n",
"    \"FLAVIVS AËTIVS\"                               -> \"플라비우스 아에티우스\"\n",
"    \"Syracusae\"                                    -> \"시라쿠사이\"\n",
"    \"Gnaeus Pompeius Magnus\"                       -> \"그나이우스 폼페이우스 마그누스\"\n",
"    \"MARCUS VLPIVS NERVA TRAIANVS\"                 -> \"마르쿠스 울피우스 네르바 트라야누스\"\n",
"    \"GAIVS OCTAVIVS\"                               -> \"가이우스 옥타비우스\"\n",
"    \"Roma\"                                         -> \"로마\"\n",
"    \"Illyricum\"                                    -> \"일리리쿰\"\n",
"    \"Bacchus\"                                      -> \"바쿠스\"\n",
"    \"Aeneis\"                                       -> \"아이네이스\"\n",
"    \"Iudaea\"                                       -> \"유다이아\"\n",
"    \"MARCVS TVLLIVS CICERO\"                        -> \"마르쿠스 툴리우스 키케로\"\n",
"    \"Gnaeus Julius Agricola\"                       -> \"그나이우스 율리우스 아그리콜라\"\n"]

theorem lines13_ok : Part true lang macros vars (str "transcribe") lines13 (str "test") := by
  apply piece_of
  · dsimp only [lines13]; repeat (first | exact .nil | apply Spells.cons)
  · decide +kernel

def lines14 : List String := [
"    \"Mons Vesuvius\"                                -> \"몬스 베수비우스\"\n",
"    \"Carthago\"                                     -> \"카르타고\"\n",
"    \"SPARTACVS\"                                    -> \"스파르타쿠스\"\n",
"    \"Flavius Petrus Sabbatius Justinianus\"         -> \"플라비우스 페트루스 사바티우스 유스티니아누스\"\n",
"    \"GAIVS PLINIVS SECVNDVS\"                       -> \"가이우스 플리니우스 세쿤두스\"\n",
"    \"Gaius Plinius Secundus\"                       -> \"가이우스 플리니우스 세쿤두스\"\n",
"    \"Vesta\"                                        -> \"베스타\"\n",
"    \"SEXTVS AVRELIVS PROPERTIVS\"                   -> \"섹스투스 아우렐리우스 프로페르티우스\"\n",
"    \"Venus\"                                        -> \"베누스\"\n",
"    \"Averroës\"                                     -> \"아베로에스\"\n",
"    \"Titus Flavius Vespasianus\"                    -> \"티투스 플라비우스 베스파시아누스\"\n",
"    \"IVLIA AVGVSTA AGRIPPINA\"                      -> \"율리아 아우구스타 아그리피나\"\n",
"    \"Marcus Tullius Cicero\"                        -> \"마르쿠스 툴리우스 키케로\"\n",
"    \"Diana\"                                        -> \"디아나\"\n",
"    \"Gaius Suetonius Tranquillus\"                  -> \"가이우스 수에토니우스 트랑퀼루스\"\n",
"    \"Numidia\"                                      -> \"누미디아\"\n",
"    \"Gotarzes\"                                     -> \"고타르제스\"\n",
"    \"Sextus Aurelius Propertius\"                   -> \"섹스투스 아우렐리우스 프로페르티우스\"\n",
"    \"GNAEVS POMPEIVS MAGNVS\"                       -> \"그나이우스 폼페이우스 마그누스\"\n",
"    \"Spartacus\"                                    -> \"스파르타쿠스\"\n",
"    \"Mithridates\"                                  -> \"미트리다테스\"\n",
"    \"GAIVS IVLIVS CAESAR AVGVSTVS\"                 -> \"가이우스 율리우스 카이사르 아우구스투스\"\n",
"    \"TITVS MACCIVS PLAVTVS\"                        -> \"티투스 마키우스 플라우투스\"\n",
"    \"Naturalis Historia\"                           -> \"나투랄리스 히스토리아\"\n",
"    \"res publica\"                                  -> \"레스 푸블리카\"\n",
"    \"Pax Romana\"                                   -> \"팍스 로마나\"\n",
"    \"Gaius Aurelius Valerius Diocletianus\"         -> \"가이우스 아우렐리우스 발레리우스 디오클레티아누스\"\n",
"    \"GNAEUS IVLIVS AGRICOLA\"                       -> \"그나이우스 율리우스 아그리콜라\"\n",
"    \"Titus Livius\"                                 -> \"티투스 리비우스\"\n",
"    \"Vulcanus\"                                     -> \"불카누스\"\n",
"    \"Flavius Odoacer\"                              -> \"플라비우스 오도아케르\"\n",
"    \"Gallia\"                                       -> \"갈리아\"\n",
"    \"Marcus Vitruvius Pollio\"                      -> \"마르쿠스 비트루비우스 폴리오\"\n",
"    \"Julia Augusta Agrippina\"                      -> \"율리아 아우구스타 아그리피나\"\n",
"    \"QVINTVS HORATIVS FLACCVS\"                     -> \"퀸투스 호라티우스 플라쿠스\"\n",
"    \"GAIVS IVLIVS CAESAR\"                          -> \"가이우스 율리우스 카이사르\"\n",
"    \"PVBLIVS VERGILIVS MARO\"                       -> \"푸블리우스 베르길리우스 마로\"\n",
"    \"Mars\"                                         -> \"마르스\"\n",
"    \"MARCVS ANTONIVS\"                              -> \"마르쿠스 안토니우스\"\n",
"    \"Gaius Sallustius Crispus\"                     -> \"가이우스 살루스티우스 크리스푸스\"\n",
"    \"TIBERIVS CLAVDIVS CAESAR AVGVSTVS GERMANICVS\" -> \"티베리우스 클라우디우스 카이사르 아우구스투스 게르마니쿠스\"\n",
"    \"MARCVS LICINIVS CRASSVS\"                      -> \"마르쿠스 리키니우스 크라수스\"\n",
"    \"GAIVS SALLVSTIVS CRISPVS\"                     -> \"가이우스 살루스티우스 크리스푸스\"\n"]

theorem lines14_ok : Part true lang macros vars (str "test") lines14 (str "test") := by
  apply piece_of
  · dsimp only [lines14]; repeat (first | exact .nil | apply Spells.cons)
  · decide +kernel

def lines15 : List String := [
"    \"Flavius Valerius Aurelius Constantinus\"       -> \"플라비우스 발레리우스 아우렐리우스 콘스탄티누스\"\n",
"    \"Gaius Plinius Caecilius Secundus\"             -> \"가이우스 플리니우스 카이킬리우스 세쿤두스\"\n",
"    \"Padus\"                                        -> \"파두스\"\n",
"    \"Latium\"                                       -> \"라티움\"\n",
"    \"Anselmus\"                                     -> \"안셀무스\"\n",
"    \"Flavius Josephus\"                             -> \"플라비우스 요세푸스\"\n",
"    \"Pluto\"                                        -> \"플루토\"\n",
"    \"Galatia\"                                      -> \"갈라티아\"\n",
"    \"Nero Claudius Caesar Augustus Germanicus\"     -> \"네로 클라우디우스 카이사르 아우구스투스 게르마니쿠스\"\n",
"    \"TITVS FLAVIVS VESPASIANVS\"                    -> \"티투스 플라비우스 베스파시아누스\"\n",
"    \"Apollo\"                                       -> \"아폴로\"\n",
"    \"Thracia\"                                      -> \"트라키아\"\n",
"    \"Aurelius Augustinus Hipponensis\"              -> \"아우렐리우스 아우구스티누스 히포넨시스\"\n",
"    \"Germania\"                                     -> \"게르마니아\"\n",
"    \"NERO CLAVDIVS CAESAR AVGVSTVS GERMANICVS\"     -> \"네로 클라우디우스 카이사르 아우구스투스 게르마니쿠스\"\n",
"    \"Gaius Julius Caesar Augustus\"                 -> \"가이우스 율리우스 카이사르 아우구스투스\"\n",
"    \"Cannae\"                                       -> \"칸나이\"\n",
"    \"Publius Vergilius Maro\"                       -> \"푸블리우스 베르길리우스 마로\"\n",
"    \"LVCIVS ANNAEUS SENECA\"                        -> \"루키우스 안나이우스 세네카\"\n",
"    \"TITVS LIVIVS\"                                 -> \"티투스 리비우스\"\n",
"    \"Marcus Ulpius Nerva Trajanus\"                 -> \"마르쿠스 울피우스 네르바 트라야누스\"\n",
"    \"Sicilia\"                                      -> \"시킬리아\"\n",
"    \"APVLEIVS\"                                     -> \"아풀레이우스\"\n",
"    \"Cornelia Scipionis Africana\"                  -> \"코르넬리아 스키피오니스 아프리카나\"\n",
"    \"Iupitter\"                                     -> \"유피테르\"\n",
"    \"Lucius Annaeus Seneca\"                        -> \"루키우스 안나이우스 세네카\"\n",
"    \"Carolus Magnus\"                               -> \"카롤루스 마그누스\"\n",
"    \"Confessiones\"                                 -> \"콘페시오네스\"\n",
"    \"GAIVS MARIVS\"                                 -> \"가이우스 마리우스\"\n",
"    \"PVBLIVS AELIVS HADRIANVS\"                     -> \"푸블리우스 아일리우스 하드리아누스\"\n",
"    \"Ceres\"                                        -> \"케레스\"\n",
"    \"CORNELIA SCIPIONIS AFRICANA\"                  -> \"코르넬리아 스키피오니스 아프리카나\"\n",
"    \"Ianus\"                                        -> \"야누스\"\n",
"    \"MARCVS VITRVVIVS POLLIO\"                      -> \"마르쿠스 비트루비우스 폴리오\"\n",
"    \"Gaius Julius Caesar\"                          -> \"가이우스 율리우스 카이사르\"\n",
"    \"Philosophiæ Naturalis Principia Mathematica\"  -> \"필로소피아이 나투랄리스 프링키피아 마테마티카\"\n",
"    \"Saturnus\"                                     -> \"사투르누스\"\n",
"    \"Parthia\"                                      -> \"파르티아\"\n",
"    \"FLAVIVS PETRVS SABBATIVS IVSTINIANVS\"         -> \"플라비우스 페트루스 사바티우스 유스티니아누스\"\n",
"    \"Aegyptus\"                                     -> \"아이깁투스\"\n",
"    \"Hispania\"                                     -> \"히스파니아\"\n",
"    \"LVCIVS CORNELIVS SVLLA FELIX\"                 -> \"루키우스 코르넬리우스 술라 펠릭스\"\n",
"    \"Tiberius Claudius Caesar Augustus Germanicus\" -> \"티베리우스 클라우디우스 카이사르 아우구스투스 게르마니쿠스\"\n"]

theorem lines15_ok : Part true lang macros vars (str "test") lines15 (str "test") := by
  apply piece_of
  · dsimp only [lines15]; repeat (first | exact .nil | apply Spells.cons)
  · decide +kernel

def lines16 : List String := [
"    \"LVCIVS AVRELIVS COMMODVS ANTONINVS\"           -> \"루키우스 아우렐리우스 콤모두스 안토니누스\"\n",
"    \"Gaius Octavius\"                               -> \"가이우스 옥타비우스\"\n",
"    \"Flavius Aëtius\"                               -> \"플라비우스 아에티우스\"\n",
"    \"Mercurius\"                                    -> \"메르쿠리우스\"\n",
"    \"Marcus Vipsanius Agrippa\"                     -> \"마르쿠스 빕사니우스 아그리파\"\n",
"\n"]

theorem lines16_ok : Part true lang macros vars (str "test") lines16 (str "test") := by
  apply piece_of
  · dsimp only [lines16]; repeat (first | exact .nil | apply Spells.cons)
  · decide +kernel

/-- The lines of the file. -/
def lines : List String := head ++ (lines1 ++ (lines2 ++ (lines3 ++ (lines4 ++ (lines5 ++ (lines6 ++ (lines7 ++ (lines8 ++ (lines9 ++ (lines10 ++ (lines11 ++ (lines12 ++ (lines13 ++ (lines14 ++ (lines15 ++ (lines16))))))))))))))))

/-- The file is a spec with checked rules. -/
theorem sound : Sound (text lines) lang := sound_of head_ok (lines1_ok.append (lines2_ok.append (lines3_ok.append (lines4_ok.append (lines5_ok.append (lines6_ok.append (lines7_ok.append (lines8_ok.append (lines9_ok.append (lines10_ok.append (lines11_ok.append (lines12_ok.append (lines13_ok.append (lines14_ok.append (lines15_ok.append (lines16_ok)))))))))))))))) (by decide +kernel)

end Verif.Specs.Lat
