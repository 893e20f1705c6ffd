import Verif.Specs.GrcHead

/-! specs/grc.hsl, part 2, generated by tools/gen_specs.py. -/

set_option Elab.async false

namespace Verif.Specs.Grc

open Hsl

def lines17 : List String := [
"    \"Ἥλιος\"        -> \"헬리오스\"\n",
"    \"Ἰάσων\"        -> \"이아손\"\n",
"    \"Ἑκάτη\"        -> \"헤카테\"\n",
"    \"Γαῖα\"         -> \"가이아\"\n",
"    \"Τυνδάρεως\"    -> \"틴다레오스\"\n",
"    \"Ἡσίοδος\"      -> \"헤시오도스\"\n",
"    \"Ἱέρων\"        -> \"히에론\"\n",
"    \"Τιτάν\"        -> \"티탄\"\n",
"    \"Ἴλιον\"        -> \"일리온\"\n",
"    \"Ἀριστοτέλης\"  -> \"아리스토텔레스\"\n",
"    \"Ὀδύσσεια\"     -> \"오디세이아\"\n",
"    \"Σέλευκος\"     -> \"셀레우코스\"\n",
"    \"Μίδας\"        -> \"미다스\"\n",
"    \"Ἀναξίμανδρος\" -> \"아낙시만드로스\"\n",
"    \"Ἡρακλῆς\"      -> \"헤라클레스\"\n",
"    \"Ξενοφῶν\"      -> \"크세노폰\"\n",
"    \"Ἕκτωρ\"        -> \"헥토르\"\n",
"    \"Ῥόδος\"        -> \"로도스\"\n",
"    \"Δῆλος\"        -> \"델로스\"\n",
"    \"Εὐρώπη\"       -> \"에우로페\"\n",
"    \"Ἱσπανία\"      -> \"히스파니아\"\n",
"    \"Πάν\"          -> \"판\"\n",
"    \"Ἀρχιμήδης\"    -> \"아르키메데스\"\n",
"    \"Πύθων\"        -> \"피톤\"\n",
"    \"Ἀγαμέμνων\"    -> \"아가멤논\"\n",
"    \"Ἁλικαρνασσός\" -> \"할리카르나소스\"\n",
"    \"Ἑλένη\"        -> \"헬레네\"\n",
"    \"Εὐκτήμων\"     -> \"에욱테몬\"\n",
"    \"Εὐριπίδης\"    -> \"에우리피데스\"\n",
"    \"Θεμιστοκλῆς\"  -> \"테미스토클레스\"\n",
"    \"Ὀρφεύς\"       -> \"오르페우스\"\n",
"    \"Ἰθάκη\"        -> \"이타케\"\n",
"    \"Μνήμη\"        -> \"므네메\"\n",
"    \"Ἀμαζών\"       -> \"아마존\"\n",
"    \"Σεμέλη\"       -> \"세멜레\"\n",
"    \"Ἀντίγονος\"    -> \"안티고노스\"\n",
"    \"Ἱπποκράτης\"   -> \"히포크라테스\"\n",
"    \"Ἰλιάς\"        -> \"일리아스\"\n",
"    \"Σιληνός\"      -> \"실레노스\"\n",
"    \"Ἀλεξάνδρεια\"  -> \"알렉산드레이아\"\n",
"    \"ᾍδης\"         -> \"하데스\"\n",
"    \"Ἀναξανδρίδας\" -> \"아낙산드리다스\"\n",
"    \"Ἔρις\"         -> \"에리스\"\n",
"    \"Ἥφαιστος\"     -> \"헤파이스토스\"\n",
"    \"Πλάτων\"       -> \"플라톤\"\n",
"    \"Πτολεμαῖος\"   -> \"프톨레마이오스\"\n",
"    \"Ὄλυμπος\"      -> \"올림포스\"\n",
"    \"Νεμέα\"        -> \"네메아\"\n",
"    \"Δημόκριτος\"   -> \"데모크리토스\"\n",
"    \"Οἰδίπους\"     -> \"오이디푸스\"\n",
"    \"Τροία\"        -> \"트로이아\"\n",
"    \"Θαλῆς\"        -> \"탈레스\"\n",
"    \"Ίαπετός\"      -> \"이아페토스\"\n",
"    \"Ἐλεφαντίνη\"   -> \"엘레판티네\"\n",
"    \"Ἀχιλλεύς\"     -> \"아킬레우스\"\n",
"    \"Ἥβη\"          -> \"헤베\"\n",
"    \"Σωκράτης\"     -> \"소크라테스\"\n",
"    \"Ἀμφίπολις\"    -> \"암피폴리스\"\n",
"    \"Λεωνίδας\"     -> \"레오니다스\"\n",
"    \"Ῥοδόπη\"       -> \"로도페\"\n",
"    \"Ὠρίων\"        -> \"오리온\"\n",
"    \"Ἵππαρχος\"     -> \"히파르코스\"\n",
"    \"Ἄδωνις\"       -> \"아도니스\"\n",
"    \"Πολύβιος\"     -> \"폴리비오스\"\n",
"    \"Ζάκυνθος\"     -> \"자킨토스\"\n",
"    \"Ῥέα\"          -> \"레아\"\n",
"    \"Πυθία\"        -> \"피티아\"\n",
"    \"Ὕδρα\"         -> \"히드라\"\n",
"    \"Δελφοί\"       -> \"델포이\"\n",
"    \"Σαπφώ\"        -> \"사포\"\n",
"    \"Αἴολος\"       -> \"아이올로스\"\n",
"    \"Τῆλος\"        -> \"텔로스\"\n",
"    \"Ἀλέξανδρος\"   -> \"알렉산드로스\"\n",
"    \"Χάος\"         -> \"카오스\"\n",
"    \"Ἀθηνᾶ\"        -> \"아테나\"\n",
"    \"Πίνδαρος\"     -> \"핀다로스\"\n",
"    \"Ἑρμής\"        -> \"헤르메스\"\n",
"    \"Περσεφόνη\"    -> \"페르세포네\"\n",
"    \"Ἔρως\"         -> \"에로스\"\n",
"    \"Αἴσωπος\"      -> \"아이소포스\"\n",
"    \"Δημήτηρ\"      -> \"데메테르\"\n",
"    \"Ἀριάδνη\"      -> \"아리아드네\"\n",
"    \"Σαμοθρᾴκη\"    -> \"사모트라케\"\n",
"    \"Ἰωνία\"        -> \"이오니아\"\n",
"    \"Δάφνη\"        -> \"다프네\"\n",
"    \"Προμηθεύς\"    -> \"프로메테우스\"\n",
"    \"Κλεομένης\"    -> \"클레오메네스\"\n",
"    \"Σίσυφος\"      -> \"시시포스\"\n"]

theorem lines17_ok : Part true lang macros vars (str "test") lines17 (str "test") := by
  apply piece_of
  · dsimp only [lines17]; repeat (first | exact .nil | apply Spells.cons)
  · decide +kernel

def lines18 : List String := [
"    \"Ζεύς\"         -> \"제우스\"\n",
"\n"]

theorem lines18_ok : Part true lang macros vars (str "test") lines18 (str "test") := by
  apply piece_of
  · dsimp only [lines18]; repeat (first | exact .nil | apply Spells.cons)
  · decide +kernel

end Verif.Specs.Grc
