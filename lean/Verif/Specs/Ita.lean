import Verif.Proofs.Bundle

/-! specs/ita.hsl, generated by tools/gen_specs.py. -/

set_option Elab.async false

namespace Verif.Specs.Ita

open Hsl

/-- The language of the spec. -/
def lang : Language :=
  ⟨str "ita", (str "it", str "ita"), str "Italian", str "이탈리아어", str "Latn", []⟩

def macros : List (Bytes × Bytes) := [(str "@", str "<vowels>")]

def vars : List (Bytes × List Bytes) := [(str "vowels", [str "a", str "e", str "i", str "o", str "u"])]

def keys : List (Rune × List Rune) := []

def kept : List Rune := []

def head : List String := [
"lang:\n",
"    id      = \"ita\"\n",
"    codes   = \"it\", \"ita\"\n",
"    english = \"Italian\"\n",
"    korean  = \"이탈리아어\"\n",
"    script  = \"Latn\"\n",
"\n",
"config:\n",
"    author = \"Brian Jongseong Park <iceager@gmail.com>\"\n",
"    stage  = \"draft\"\n",
"\n",
"macros:\n",
"    \"@\" = \"<vowels>\"\n",
"\n",
"vars:\n",
"    \"vowels\" = \"a\", \"e\", \"i\", \"o\", \"u\"\n",
"\n"]

theorem head_ok : ∃ xs, Reads [] (runes (text head)) xs (str "vars") ∧ headOk lang macros vars keys kept xs = true := by
  apply piece_of
  · dsimp only [head]; repeat (first | exact .nil | apply Spells.cons)
  · decide +kernel

def lines1 : List String := [
"rewrite:\n",
"    \"'\"             -> \"\"\n",
"    \"^gli$\"         -> \"li\"\n",
"    \"^glia$\"        -> \"g{}lia\"\n",
"    \"^glioma$\"      -> \"g{}lioma\"\n",
"    \"^gli{@}\"       -> \"li\"\n",
"    \"{@}gli\"        -> \"li\"\n",
"    \"gn{@}\"         -> \"nJ\"\n",
"    \"gn\"            -> \"n\"\n",
"    \"gg\"            -> \"g\"\n",
"    \"gi{a|o|u}\"     -> \"G\"\n"]

theorem lines1_ok : Part true lang macros vars (str "vars") lines1 (str "rewrite") := by
  apply piece_of
  · dsimp only [lines1]; repeat (first | exact .nil | apply Spells.cons)
  · decide +kernel

def lines2 : List String := [
"    \"g{e|i}\"        -> \"G\"\n",
"    \"ss\"            -> \"s\"\n",
"    \"sce\"           -> \"sJe\"\n",
"    \"sci\"           -> \"si\"\n",
"    \"cc\"            -> \"c\"\n",
"    \"ci{a|o|u}\"     -> \"z\"\n",
"    \"c{e|i}\"        -> \"z\"\n",
"    \"c\"             -> \"k\"\n",
"    \"qq\"            -> \"q\"\n",
"    \"quo\"           -> \"kuo\"\n"]

theorem lines2_ok : Part true lang macros vars (str "rewrite") lines2 (str "rewrite") := by
  apply piece_of
  · dsimp only [lines2]; repeat (first | exact .nil | apply Spells.cons)
  · decide +kernel

def lines3 : List String := [
"    \"qu{a|e|i}\"     -> \"kW\"\n",
"    \"quy\"           -> \"kWi\"\n",
"    \"q\"             -> \"k\"\n",
"    \"xx\"            -> \"x\"\n",
"    \"x\"             -> \"ks\"\n",
"    \"tt\"            -> \"t\"\n",
"    \"ts\"            -> \"z\"\n",
"    \"w\"             -> \"v\"\n",
"    \"aa\"            -> \"a\"\n",
"    \"bb\"            -> \"b\"\n"]

theorem lines3_ok : Part true lang macros vars (str "rewrite") lines3 (str "rewrite") := by
  apply piece_of
  · dsimp only [lines3]; repeat (first | exact .nil | apply Spells.cons)
  · decide +kernel

def lines4 : List String := [
"    \"dd\"            -> \"d\"\n",
"    \"ee\"            -> \"e\"\n",
"    \"ff\"            -> \"f\"\n",
"    \"hh\"            -> \"h\"\n",
"    \"{@}h{@}\"       -> \"{}\"\n",
"    \"h\"             -> \"\"\n",
"    \"ii\"            -> \"i\"\n",
"    \"jj\"            -> \"j\"\n",
"    \"^j{@}\"         -> \"J\"\n",
"    \"{@}j{@}\"       -> \"J\"\n"]

theorem lines4_ok : Part true lang macros vars (str "rewrite") lines4 (str "rewrite") := by
  apply piece_of
  · dsimp only [lines4]; repeat (first | exact .nil | apply Spells.cons)
  · decide +kernel

def lines5 : List String := [
"    \"j\"             -> \"i\"\n",
"    \"kk\"            -> \"k\"\n",
"    \"ll\"            -> \"l\"\n",
"    \"{@}mm{@}\"      -> \"m,m\"\n",
"    \"mm\"            -> \"m\"\n",
"    \"{@}nn{@}\"      -> \"n,n\"\n",
"    \"nn\"            -> \"n\"\n",
"    \"oo\"            -> \"o\"\n",
"    \"pp\"            -> \"p\"\n",
"    \"rr\"            -> \"r\"\n"]

theorem lines5_ok : Part true lang macros vars (str "rewrite") lines5 (str "rewrite") := by
  apply piece_of
  · dsimp only [lines5]; repeat (first | exact .nil | apply Spells.cons)
  · decide +kernel

def lines6 : List String := [
"    \"tt\"            -> \"t\"\n",
"    \"uu\"            -> \"u\"\n",
"    \"vv\"            -> \"v\"\n",
"    \"^y{@}\"         -> \"J\"\n",
"    \"yy\"            -> \"y\"\n",
"    \"y\"             -> \"i\"\n",
"    \"zz\"            -> \"z\"\n",
"    \"{@}k{p|s|t|z}\" -> \"k,\"\n",
"    \"{@}p{k|s|t|z}\" -> \"p,\"\n",
"    \"^l\"            -> \"l;\"\n"]

theorem lines6_ok : Part true lang macros vars (str "rewrite") lines6 (str "rewrite") := by
  apply piece_of
  · dsimp only [lines6]; repeat (first | exact .nil | apply Spells.cons)
  · decide +kernel

def lines7 : List String := [
"    \"^m\"            -> \"m;\"\n",
"    \"^n\"            -> \"n;\"\n",
"    \"l$\"            -> \"l,\"\n",
"    \"m$\"            -> \"m,\"\n",
"    \"n$\"            -> \"n,\"\n",
"    \"l{@|m,|n,}\"    -> \"l;\"\n",
"    \"{,}l\"          -> \"l;\"\n",
"    \"m{@}\"          -> \"m;\"\n",
"    \"n{@|J}\"        -> \"n;\"\n",
"    \"l\"             -> \"l,\"\n"]

theorem lines7_ok : Part true lang macros vars (str "rewrite") lines7 (str "rewrite") := by
  apply piece_of
  · dsimp only [lines7]; repeat (first | exact .nil | apply Spells.cons)
  · decide +kernel

def lines8 : List String := [
"    \"m\"             -> \"m,\"\n",
"    \"n\"             -> \"n,\"\n",
"    \",,\"            -> \",\"\n",
"    \",;\"            -> \"\"\n",
"    \",l,\"           -> \"l,\"\n",
"    \",m,\"           -> \"m,\"\n",
"    \",n,\"           -> \"n,\"\n",
"    \"l{mn}\"         -> \"l,\"\n",
"    \";\"             -> \"\"\n",
"\n"]

theorem lines8_ok : Part true lang macros vars (str "rewrite") lines8 (str "rewrite") := by
  apply piece_of
  · dsimp only [lines8]; repeat (first | exact .nil | apply Spells.cons)
  · decide +kernel

def lines9 : List String := [
"transcribe:\n",
"    \"b\"    -> \"ㅂ\"\n",
"    \"d\"    -> \"ㄷ\"\n",
"    \"f\"    -> \"ㅍ\"\n",
"    \"g\"    -> \"ㄱ\"\n",
"    \"G\"    -> \"ㅈ\"\n",
"    \"k,\"   -> \"-ㄱ\"\n",
"    \"k\"    -> \"ㅋ\"\n",
"    \"^l\"   -> \"ㄹ\"\n",
"    \"{,}l\" -> \"ㄹ\"\n",
"    \"l,\"   -> \"-ㄹ\"\n"]

theorem lines9_ok : Part true lang macros vars (str "rewrite") lines9 (str "transcribe") := by
  apply piece_of
  · dsimp only [lines9]; repeat (first | exact .nil | apply Spells.cons)
  · decide +kernel

def lines10 : List String := [
"    \"l\"    -> \"-ㄹㄹ\"\n",
"    \"m,\"   -> \"-ㅁ\"\n",
"    \"m\"    -> \"ㅁ\"\n",
"    \"n,\"   -> \"-ㄴ\"\n",
"    \"n\"    -> \"ㄴ\"\n",
"    \"p,\"   -> \"-ㅂ\"\n",
"    \"p\"    -> \"ㅍ\"\n",
"    \"r\"    -> \"ㄹ\"\n",
"    \"s\"    -> \"ㅅ\"\n",
"    \"t\"    -> \"ㅌ\"\n"]

theorem lines10_ok : Part true lang macros vars (str "transcribe") lines10 (str "transcribe") := by
  apply piece_of
  · dsimp only [lines10]; repeat (first | exact .nil | apply Spells.cons)
  · decide +kernel

def lines11 : List String := [
"    \"v\"    -> \"ㅂ\"\n",
"    \"z\"    -> \"ㅊ\"\n",
"    \"Ja\"   -> \"ㅑ\"\n",
"    \"Je\"   -> \"ㅖ\"\n",
"    \"Ji\"   -> \"ㅣ\"\n",
"    \"Jo\"   -> \"ㅛ\"\n",
"    \"Ju\"   -> \"ㅠ\"\n",
"    \"Wa\"   -> \"ㅘ\"\n",
"    \"We\"   -> \"ㅞ\"\n",
"    \"Wi\"   -> \"ㅟ\"\n"]

theorem lines11_ok : Part true lang macros vars (str "transcribe") lines11 (str "transcribe") := by
  apply piece_of
  · dsimp only [lines11]; repeat (first | exact .nil | apply Spells.cons)
  · decide +kernel

def lines12 : List String := [
"    \"a\"    -> \"ㅏ\"\n",
"    \"e\"    -> \"ㅔ\"\n",
"    \"i\"    -> \"ㅣ\"\n",
"    \"o\"    -> \"ㅗ\"\n",
"    \"u\"    -> \"ㅜ\"\n",
"\n"]

theorem lines12_ok : Part true lang macros vars (str "transcribe") lines12 (str "transcribe") := by
  apply piece_of
  · dsimp only [lines12]; repeat (first | exact .nil | apply Spells.cons)
  · decide +kernel

def lines13 : List String := [
"test:\n",
"    \"allegretto\"              -> \"알레그레토\"\n",
"    \"gita\"                    -> \"지타\"\n",
"    \"bisnonno\"                -> \"비스논노\"\n",
"    \"Pinocchio\"               -> \"피노키오\"\n",
"    \"Bologna\"                 -> \"볼로냐\"\n",
"    \"Torino\"                  -> \"토리노\"\n",
"    \"sol\"                     -> \"솔\"\n",
"    \"carro\"                   -> \"카로\"\n",
"    \"poetica\"                 -> \"포에티카\"\n",
"    \"Vivace\"                  -> \"비바체\"\n",
"    \"uva\"                     -> \"우바\"\n",
"    \"rosso\"                   -> \"로소\"\n",
"    \"micio\"                   -> \"미초\"\n",
"    \"Anna\"                    -> \"안나\"\n",
"    \"mezzo\"                   -> \"메초\"\n",
"    \"gomma\"                   -> \"곰마\"\n",
"    \"quello\"                  -> \"퀠로\"\n",
"    \"Firenze\"                 -> \"피렌체\"\n",
"    \"palco\"                   -> \"팔코\"\n",
"    \"italia\"                  -> \"이탈리아\"\n",
"    \"soqquadro\"               -> \"소콰드로\"\n",
"    \"Caravaggio\"              -> \"카라바조\"\n",
"    \"per l'avvenire d'Italia\" -> \"페르 라베니레 디탈리아\"\n",
"    \"capra\"                   -> \"카프라\"\n",
"    \"Como\"                    -> \"코모\"\n",
"    \"erta\"                    -> \"에르타\"\n",
"    \"quando\"                  -> \"콴도\"\n",
"    \"Fognini\"                 -> \"포니니\"\n",
"    \"Milano\"                  -> \"밀라노\"\n",
"    \"Dante\"                   -> \"단테\"\n",
"    \"genere\"                  -> \"제네레\"\n",
"    \"Pisa\"                    -> \"피사\"\n",
"    \"gnocco\"                  -> \"뇨코\"\n",
"    \"Fabrizio\"                -> \"파브리치오\"\n",
"    \"Tosca\"                   -> \"토스카\"\n",
"    \"polca\"                   -> \"폴카\"\n",
"    \"Juventus\"                -> \"유벤투스\"\n",
"    \"Roma\"                    -> \"로마\"\n",
"    \"Giro d'Italia\"           -> \"지로 디탈리아\"\n",
"    \"cherubino\"               -> \"케루비노\"\n",
"    \"prima\"                   -> \"프리마\"\n",
"    \"freddo\"                  -> \"프레도\"\n",
"    \"gnu\"                     -> \"뉴\"\n",
"    \"Innocenti\"               -> \"인노첸티\"\n",
"    \"oh\"                      -> \"오\"\n",
"    \"glossa\"                  -> \"글로사\"\n",
"    \"nozze\"                   -> \"노체\"\n",
"    \"gneiss\"                  -> \"녜이스\"\n",
"    \"oblio\"                   -> \"오블리오\"\n",
"    \"hanno\"                   -> \"안노\"\n",
"    \"caccia\"                  -> \"카차\"\n",
"    \"Carlo\"                   -> \"카를로\"\n",
"    \"gloria\"                  -> \"글로리아\"\n",
"    \"crescendo\"               -> \"크레셴도\"\n",
"    \"Rex\"                     -> \"렉스\"\n",
"    \"sbozzacchisce\"           -> \"스보차키셰\"\n",
"    \"bravo\"                   -> \"브라보\"\n",
"    \"tranne\"                  -> \"트란네\"\n",
"    \"paglia\"                  -> \"팔리아\"\n",
"    \"padrone\"                 -> \"파드로네\"\n",
"    \"manovra\"                 -> \"마노브라\"\n",
"    \"buffa\"                   -> \"부파\"\n",
"    \"infamia\"                 -> \"인파미아\"\n",
"    \"Campanella\"              -> \"캄파넬라\"\n",
"    \"manica\"                  -> \"마니카\"\n",
"    \"ogni\"                    -> \"오니\"\n",
"    \"drizza\"                  -> \"드리차\"\n",
"    \"Scalenghe\"               -> \"스칼렌게\"\n",
"    \"nephos\"                  -> \"네포스\"\n",
"    \"spuma\"                   -> \"스푸마\"\n",
"    \"cenere\"                  -> \"체네레\"\n",
"    \"egli\"                    -> \"엘리\"\n",
"    \"asma\"                    -> \"아스마\"\n",
"    \"Galileo\"                 -> \"갈릴레오\"\n",
"    \"queto\"                   -> \"퀘토\"\n",
"    \"Marconi\"                 -> \"마르코니\"\n",
"    \"Cerigotto\"               -> \"체리고토\"\n",
"    \"mancanza\"                -> \"만칸차\"\n",
"    \"Puccini\"                 -> \"푸치니\"\n",
"    \"credo\"                   -> \"크레도\"\n",
"    \"montagna\"                -> \"몬타냐\"\n",
"    \"sasso\"                   -> \"사소\"\n",
"    \"quota\"                   -> \"쿠오타\"\n",
"    \"Anghiari\"                -> \"안기아리\"\n",
"    \"quieto\"                  -> \"퀴에토\"\n",
"    \"scivolo\"                 -> \"시볼로\"\n",
"    \"Ignazio\"                 -> \"이냐치오\"\n",
"    \"Macchiavelli\"            -> \"마키아벨리\"\n"]

theorem lines13_ok : Part true lang macros vars (str "transcribe") lines13 (str "test") := by
  apply piece_of
  · dsimp only [lines13]; repeat (first | exact .nil | apply Spells.cons)
  · decide +kernel

def lines14 : List String := [
"    \"largo\"                   -> \"라르고\"\n",
"    \"cima\"                    -> \"치마\"\n",
"    \"Sorrento\"                -> \"소렌토\"\n",
"    \"Sicilia\"                 -> \"시칠리아\"\n",
"    \"Genova\"                  -> \"제노바\"\n",
"    \"abituro\"                 -> \"아비투로\"\n",
"    \"Schiavonia\"              -> \"스키아보니아\"\n",
"    \"divertimento\"            -> \"디베르티멘토\"\n",
"    \"mamma\"                   -> \"맘마\"\n",
"    \"scudo\"                   -> \"스쿠도\"\n",
"    \"Nero\"                    -> \"네로\"\n",
"    \"Fogli\"                   -> \"폴리\"\n",
"\n",
"    # Adopted Loanwords\n",
"    \"tiramisù\"    -> \"티라미수\"\n",
"    \"pizza\"       -> \"피차\"\n",
"    \"spaghetti\"   -> \"스파게티\"\n",
"    \"pasta\"       -> \"파스타\"\n",
"    \"nutella\"     -> \"누텔라\"\n",
"    \"vongole\"     -> \"본골레\"\n",
"    \"gelato\"      -> \"젤라토\"\n",
"    \"maccheroni\"  -> \"마케로니\"\n",
"    \"dólce\"       -> \"돌체\"\n",
"    \"ciabatta\"    -> \"차바타\"\n",
"    \"Salami\"      -> \"살라미\"\n",
"    \"broccoli\"    -> \"브로콜리\"\n",
"    \"Gnocchi\"     -> \"뇨키\"\n",
"    \"bruschetta\"  -> \"브루스케타\"\n",
"    \"gorgonzola\"  -> \"고르곤촐라\"\n",
"    \"mozzarella\"  -> \"모차렐라\"\n",
"    \"mascarpone\"  -> \"마스카르포네\"\n",
"    \"carbonara\"   -> \"카르보나라\"\n",
"    \"ricotta\"     -> \"리코타\"\n",
"    \"macchiato\"   -> \"마키아토\"\n",
"    \"affogato\"    -> \"아포가토\"\n",
"    \"caffè latte\" -> \"카페 라테\"\n",
"    \"cappuccino\"  -> \"카푸치노\"\n",
"    \"espresso\"    -> \"에스프레소\"\n",
"    \"barista\"     -> \"바리스타\"\n",
"    \"cantata\"     -> \"칸타타\"\n",
"    \"madonna\"     -> \"마돈나\"\n",
"    \"Prima Donna\" -> \"프리마 돈나\"\n",
"    \"bolero\"      -> \"볼레로\"\n",
"    \"da capo\"     -> \"다 카포\"\n",
"    \"ocarina\"     -> \"오카리나\"\n",
"    \"piccolo\"     -> \"피콜로\"\n",
"    \"bravo\"       -> \"브라보\"\n",
"    \"a cappella\"  -> \"아 카펠라\"\n",
"    \"Fuga\"        -> \"푸가\"\n",
"    \"Aria\"        -> \"아리아\"\n",
"    \"soprano\"     -> \"소프라노\"\n",
"    \"alto\"        -> \"알토\"\n",
"    \"Maestro\"     -> \"마에스트로\"\n",
"    \"cantabile\"   -> \"칸타빌레\"\n",
"    \"forte\"       -> \"포르테\"\n",
"    \"piano\"       -> \"피아노\"\n",
"    \"fortissimo\"  -> \"포르티시모\"\n",
"    \"pianissimo\"  -> \"피아니시모\"\n",
"    \"staccato\"    -> \"스타카토\"\n",
"    \"diminuendo\"  -> \"디미누엔도\"\n",
"    \"andante\"     -> \"안단테\"\n",
"    \"andantino\"   -> \"안단티노\"\n",
"    \"moderato\"    -> \"모데라토\"\n",
"    \"allegreto\"   -> \"알레그레토\"\n",
"    \"allegro\"     -> \"알레그로\"\n",
"    \"vivace\"      -> \"비바체\"\n",
"    \"biennale\"    -> \"비엔날레\"\n",
"    \"torso\"       -> \"토르소\"\n",
"    \"graffiti\"    -> \"그라피티\"\n",
"    \"terra cotta\" -> \"테라 코타\"\n",
"    \"fresco\"      -> \"프레스코\"\n",
"    \"libero\"      -> \"리베로\"\n",
"    \"ballerina\"   -> \"발레리나\"\n",
"    \"ballerino\"   -> \"발레리노\"\n",
"    \"paparazzi\"   -> \"파파라치\"\n",
"    \"terra rossa\" -> \"테라 로사\"\n",
"    \"mafia\"       -> \"마피아\"\n",
"    \"Amore\"       -> \"아모레\"\n",
"    \"Tosca\"       -> \"토스카\"\n",
"    \"prèsto\"      -> \"프레스토\"\n",
"    \"la vita\"     -> \"라 비타\"\n"]

theorem lines14_ok : Part true lang macros vars (str "test") lines14 (str "test") := by
  apply piece_of
  · dsimp only [lines14]; repeat (first | exact .nil | apply Spells.cons)
  · decide +kernel

/-- The lines of the file. -/
def lines : List String := head ++ (lines1 ++ (lines2 ++ (lines3 ++ (lines4 ++ (lines5 ++ (lines6 ++ (lines7 ++ (lines8 ++ (lines9 ++ (lines10 ++ (lines11 ++ (lines12 ++ (lines13 ++ (lines14))))))))))))))

/-- The file is a spec with checked rules. -/
theorem sound : Sound (text lines) lang := sound_of head_ok (lines1_ok.append (lines2_ok.append (lines3_ok.append (lines4_ok.append (lines5_ok.append (lines6_ok.append (lines7_ok.append (lines8_ok.append (lines9_ok.append (lines10_ok.append (lines11_ok.append (lines12_ok.append (lines13_ok.append (lines14_ok)))))))))))))) (by decide +kernel)

end Verif.Specs.Ita
