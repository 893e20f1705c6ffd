import Verif.Specs.EllHead

/-! specs/ell.hsl, part 2, generated by tools/gen_specs.py. -/

set_option Elab.async false

namespace Verif.Specs.Ell

open Hsl

def lines17 : List String := [
"    \"ε\"    -> \"ㅔ\"\n",
"    \"ι\"    -> \"ㅣ\"\n",
"    \"ο\"    -> \"ㅗ\"\n",
"    \"Υ\"    -> \"ㅜ\"\n",
"    \"Ψ\"    -> \"ㅇ\"\n",
"\n"]

theorem lines17_ok : Part true lang macros vars (str "transcribe") lines17 (str "transcribe") := by
  apply piece_of
  · dsimp only [lines17]; repeat (first | exact .nil | apply Spells.cons)
  · decide +kernel

def lines18 : List String := [
"test:\n",
"    \"προϋπολογίζω\"             -> \"프로이폴로이조\"\n",
"    \"Καλαμάτα\"                 -> \"칼라마타\"\n",
"    \"χθες\"                     -> \"흐테스\"\n",
"    \"Πέμπτη\"                   -> \"펨티\"\n",
"    \"ιστορία\"                  -> \"이스토리아\"\n",
"    \"Ξανά\"                     -> \"크사나\"\n",
"    \"Γκέκας\"                   -> \"게카스\"\n",
"    \"Καραμανλής\"               -> \"카라만리스\"\n",
"    \"Ετεοκλή\"                  -> \"에테오클리\"\n",
"    \"βοήθειες\"                 -> \"보이티에스\"\n",
"    \"Μιχάλης\"                  -> \"미할리스\"\n",
"    \"Θάνου\"                    -> \"타누\"\n",
"    \"χαρακτήρα\"                -> \"하락티라\"\n",
"    \"Φιλιππούπολη\"             -> \"필리푸폴리\"\n",
"    \"βορράς\"                   -> \"보라스\"\n",
"    \"Χαϊδάρι\"                  -> \"하이다리\"\n",
"    \"Συμεών\"                   -> \"시메온\"\n",
"    \"Αιγαίο\"                   -> \"에예오\"\n",
"    \"Πελασγός\"                 -> \"펠라스고스\"\n",
"    \"Διομήδης\"                 -> \"디오미디스\"\n",
"    \"Διόνυσος\"                 -> \"디오니소스\"\n",
"    \"Λάρισα\"                   -> \"라리사\"\n",
"    \"Θεοδωράκης\"               -> \"테오도라키스\"\n",
"    \"Ιωάννινα\"                 -> \"이오아니나\"\n",
"    \"χαίρετε\"                  -> \"헤레테\"\n",
"    \"Θεόδωρος\"                 -> \"테오도로스\"\n",
"    \"Σμύρνη\"                   -> \"스미르니\"\n",
"    \"Κάυστρος\"                 -> \"카이스트로스\"\n",
"    \"Ξάνθη\"                    -> \"크산티\"\n",
"    \"Ολυμπιακός\"               -> \"올림비아코스\"\n",
"    \"Ζεύγμα\"                   -> \"제브그마\"\n",
"    \"κόμμα\"                    -> \"코마\"\n",
"    \"έβδομη\"                   -> \"에브도미\"\n",
"    \"Άγιος Δημήτριος\"          -> \"아요스 디미트리오스\"\n",
"    \"Ψέριμος\"                  -> \"프세리모스\"\n",
"    \"Τάσσος\"                   -> \"타소스\"\n",
"    \"Κατερίνη\"                 -> \"카테리니\"\n",
"    \"Καζαντζάκης\"              -> \"카잔자키스\"\n",
"    \"Νάξος\"                    -> \"낙소스\"\n",
"    \"Χρύσης\"                   -> \"흐리시스\"\n",
"    \"Νικολάου\"                 -> \"니콜라우\"\n",
"    \"Αιολίδα\"                  -> \"에올리다\"\n",
"    \"Γρηγόριος\"                -> \"그리고리오스\"\n",
"    \"Παλαιό Ψυχικό\"            -> \"팔레오 프시히코\"\n",
"    \"Μύκονος\"                  -> \"미코노스\"\n",
"    \"Άνθιμος\"                  -> \"안티모스\"\n",
"    \"Κεφαλλονιά\"               -> \"케팔로니아\"\n",
"    \"Προκόπιος\"                -> \"프로코피오스\"\n",
"    \"Γιωργία\"                  -> \"요르이아\"\n",
"    \"άτεκνη\"                   -> \"아테크니\"\n",
"    \"λιοντάρι\"                 -> \"리온다리\"\n",
"    \"Βέροια\"                   -> \"베리아\"\n",
"    \"Αγρίνιο\"                  -> \"아그리니오\"\n",
"    \"Ίλιον\"                    -> \"일리온\"\n",
"    \"Χοϊδάς\"                   -> \"호이다스\"\n",
"    \"Πάρις\"                    -> \"파리스\"\n",
"    \"Παπανδρέου\"               -> \"파판드레우\"\n",
"    \"έξυπνη\"                   -> \"엑시프니\"\n",
"    \"Νέα Ιωνία\"                -> \"네아 이오니아\"\n",
"    \"τζατζίκι\"                 -> \"자지키\"\n",
"    \"ευφράδεια\"                -> \"에프라디아\"\n",
"    \"Αναστάσιος\"               -> \"아나스타시오스\"\n",
"    \"Θράκη\"                    -> \"트라키\"\n",
"    \"Μάρκος\"                   -> \"마르코스\"\n",
"    \"δυϊκός\"                   -> \"디이코스\"\n",
"    \"Ματθίας\"                  -> \"마티아스\"\n",
"    \"Έσδρας\"                   -> \"에스드라스\"\n",
"    \"σκέπτομαι\"                -> \"스켑토메\"\n",
"    \"Άλιμος\"                   -> \"알리모스\"\n"]

theorem lines18_ok : Part true lang macros vars (str "transcribe") lines18 (str "test") := by
  apply piece_of
  · dsimp only [lines18]; repeat (first | exact .nil | apply Spells.cons)
  · decide +kernel

def lines19 : List String := [
"    \"Ρόδος\"                    -> \"로도스\"\n",
"    \"καυτός\"                   -> \"카프토스\"\n",
"    \"Σάββας\"                   -> \"사바스\"\n",
"    \"Αθήνα\"                    -> \"아티나\"\n",
"    \"Βόλος\"                    -> \"볼로스\"\n",
"    \"Περιστέρι\"                -> \"페리스테리\"\n",
"    \"Εύοσμος\"                  -> \"에보스모스\"\n",
"    \"Ήπειρος\"                  -> \"이피로스\"\n",
"    \"Πλάτων\"                   -> \"플라톤\"\n",
"    \"μεζές\"                    -> \"메제스\"\n",
"    \"Μάνδρα\"                   -> \"만드라\"\n",
"    \"Ανταρκτική\"               -> \"안다르크티키\"\n",
"    \"καλά\"                     -> \"칼라\"\n",
"    \"Κομοτηνή\"                 -> \"코모티니\"\n",
"    \"εκπρόσωπος\"               -> \"엑프로소포스\"\n",
"    \"Βάρη\"                     -> \"바리\"\n",
"    \"μπρούντζος\"               -> \"브룬조스\"\n",
"    \"Φυλλίς\"                   -> \"필리스\"\n",
"    \"ηθοποιός\"                 -> \"이토피오스\"\n",
"    \"Κλυταιμνήστρα\"            -> \"클리템니스트라\"\n",
"    \"είσαι\"                    -> \"이세\"\n",
"    \"Άννα\"                     -> \"아나\"\n",
"    \"Σπάρτη\"                   -> \"스파르티\"\n",
"    \"Σημίτης\"                  -> \"시미티스\"\n",
"    \"Τραϊανός\"                 -> \"트라이아노스\"\n",
"    \"ευχή\"                     -> \"에프히\"\n",
"    \"μονοθεϊστική\"             -> \"모노테이스티키\"\n",
"    \"Παλαιό Φάληρο\"            -> \"팔레오 팔리로\"\n",
"    \"Αττική\"                   -> \"아티키\"\n",
"    \"ατμοσφαίρας\"              -> \"아트모스페라스\"\n",
"    \"εκπνέω\"                   -> \"엑프네오\"\n",
"    \"Μάρθα\"                    -> \"마르타\"\n",
"    \"Νέα Φιλαδέλφεια\"          -> \"네아 필라델피아\"\n",
"    \"Αγιά Σοφιά\"               -> \"아야 소피아\"\n",
"    \"έλεγχος\"                  -> \"엘렝호스\"\n",
"    \"σάλπιγξ\"                  -> \"살핑크스\"\n",
"    \"γεννώ\"                    -> \"예노\"\n",
"    \"Κωκυτός\"                  -> \"코키토스\"\n",
"    \"Ωνάσης\"                   -> \"오나시스\"\n",
"    \"Σεπφώρα\"                  -> \"세포라\"\n",
"    \"ναυάγησε\"                 -> \"나바이세\"\n",
"    \"Ζολώτας\"                  -> \"졸로타스\"\n",
"    \"Μαρία\"                    -> \"마리아\"\n",
"    \"Κηφισιά\"                  -> \"키피시아\"\n",
"    \"δημοκρατία\"               -> \"디모크라티아\"\n",
"    \"Ηράκλειο\"                 -> \"이라클리오\"\n",
"    \"Πειραιάς\"                 -> \"피레아스\"\n",
"    \"Ιάσονας\"                  -> \"이아소나스\"\n",
"    \"Υάκινθος\"                 -> \"이아킨토스\"\n",
"    \"Ζαγοράκης\"                -> \"자고라키스\"\n",
"    \"Βύρωνας\"                  -> \"비로나스\"\n",
"    \"Ισμήνη\"                   -> \"이스미니\"\n",
"    \"αύριο\"                    -> \"아브리오\"\n",
"    \"Μαΐου\"                    -> \"마이우\"\n",
"    \"υγειά\"                    -> \"이야\"\n",
"    \"Ηλέκτρα\"                  -> \"일렉트라\"\n",
"    \"τέσσερα\"                  -> \"테세라\"\n",
"    \"Ευγενία\"                  -> \"에브예니아\"\n",
"    \"βιβλίο\"                   -> \"비블리오\"\n",
"    \"διάλεκτος\"                -> \"디알렉토스\"\n",
"    \"Κύπρος\"                   -> \"키프로스\"\n",
"    \"Δημολέων\"                 -> \"디몰레온\"\n",
"    \"Ιφιγένεια\"                -> \"이피예니아\"\n",
"    \"Ματθαίος\"                 -> \"마테오스\"\n",
"    \"Καλλιόπη\"                 -> \"칼리오피\"\n",
"    \"Χαλκίδα\"                  -> \"할키다\"\n",
"    \"Ηλιούπολη\"                -> \"일리우폴리\"\n",
"    \"Νικόλαος\"                 -> \"니콜라오스\"\n",
"    \"Νικάνωρ\"                  -> \"니카노르\"\n",
"    \"Δημήτρης\"                 -> \"디미트리스\"\n"]

theorem lines19_ok : Part true lang macros vars (str "test") lines19 (str "test") := by
  apply piece_of
  · dsimp only [lines19]; repeat (first | exact .nil | apply Spells.cons)
  · decide +kernel

def lines20 : List String := [
"    \"Ζαχαρίας\"                 -> \"자하리아스\"\n",
"    \"υπήρξεν\"                  -> \"이피르크센\"\n",
"    \"ηυξημένου\"                -> \"이프크시메누\"\n",
"    \"Κυργιάκος\"                -> \"키르야코스\"\n",
"    \"Καθαρεύουσα\"              -> \"카타레부사\"\n",
"    \"εκθαμνίσητε\"              -> \"엑탐니시테\"\n",
"    \"Πόλυβος\"                  -> \"폴리보스\"\n",
"    \"Γεωργία\"                  -> \"예오르이아\"\n",
"    \"Εύξεινος\"                 -> \"에프크시노스\"\n",
"    \"Πετρούπολη\"               -> \"페트루폴리\"\n",
"    \"Ευαγγέλιον\"               -> \"에방겔리온\"\n",
"    \"Μιλτιάδης\"                -> \"밀티아디스\"\n",
"    \"Σωκράτης\"                 -> \"소크라티스\"\n",
"    \"Λυκαβηττός\"               -> \"리카비토스\"\n",
"    \"προστατεύω\"               -> \"프로스타테보\"\n",
"    \"Μενέλαος\"                 -> \"메넬라오스\"\n",
"    \"Παγγαία\"                  -> \"팡게아\"\n",
"    \"μαγειρειό\"                -> \"마이리오\"\n",
"    \"Πελοπόννησος\"             -> \"펠로포니소스\"\n",
"    \"Φίλιππος\"                 -> \"필리포스\"\n",
"    \"Νίκανδρος\"                -> \"니칸드로스\"\n",
"    \"στρατηγός\"                -> \"스트라티고스\"\n",
"    \"Μίκης\"                    -> \"미키스\"\n",
"    \"Μακεδονία\"                -> \"마케도니아\"\n",
"    \"Κάλυμνος\"                 -> \"칼림노스\"\n",
"    \"Χάλκη\"                    -> \"할키\"\n",
"    \"Πισσαρίδης\"               -> \"피사리디스\"\n",
"    \"συμφωνώ\"                  -> \"심포노\"\n",
"    \"Σεφέρης\"                  -> \"세페리스\"\n",
"    \"Κλεοπάτρα\"                -> \"클레오파트라\"\n",
"    \"Χίος\"                     -> \"히오스\"\n",
"    \"γυαλί\"                    -> \"얄리\"\n",
"    \"Καβάφη\"                   -> \"카바피\"\n",
"    \"Αχαρνές\"                  -> \"아하르네스\"\n",
"    \"Δημήτηρ\"                  -> \"디미티르\"\n",
"    \"φτάνω\"                    -> \"프타노\"\n",
"    \"Βουλιαγμένη\"              -> \"불리아그메니\"\n",
"    \"Βάρκιζα\"                  -> \"바르키자\"\n",
"    \"Νίκαια\"                   -> \"니케아\"\n",
"    \"Άγια Βαρβάρα\"             -> \"아야 바르바라\"\n",
"    \"Κεϋλάνη\"                  -> \"케일라니\"\n",
"    \"Σάββατο\"                  -> \"사바토\"\n",
"    \"Όλυμπος\"                  -> \"올림보스\"\n",
"    \"Παναγιώτης\"               -> \"파나요티스\"\n",
"    \"Μεσογείων\"                -> \"메소이온\"\n",
"    \"υιός\"                     -> \"이오스\"\n",
"    \"γυναίκα\"                  -> \"이네카\"\n",
"    \"πέντε\"                    -> \"펜데\"\n",
"    \"Νέα Σμύρνη\"               -> \"네아 스미르니\"\n",
"    \"Χανιά\"                    -> \"하니아\"\n",
"    \"Δυρράχιο\"                 -> \"디라히오\"\n",
"    \"Πιερής\"                   -> \"피에리스\"\n",
"    \"Κέρκυρα\"                  -> \"케르키라\"\n",
"    \"Σάρα\"                     -> \"사라\"\n",
"    \"Γρηγόρης\"                 -> \"그리고리스\"\n",
"    \"Αγαμέμνων\"                -> \"아가멤논\"\n",
"    \"ηλεκτρονικά\"              -> \"일렉트로니카\"\n",
"    \"Δαίδαλος\"                 -> \"데달로스\"\n",
"    \"Ελένη\"                    -> \"엘레니\"\n",
"    \"Ευρώπη\"                   -> \"에브로피\"\n",
"    \"Πολυνείκης\"               -> \"폴리니키스\"\n",
"    \"Τρίκαλα\"                  -> \"트리칼라\"\n",
"    \"Αθανάσιος\"                -> \"아타나시오스\"\n",
"    \"Καλλιρρόη\"                -> \"칼리로이\"\n",
"    \"κόσμος\"                   -> \"코스모스\"\n",
"    \"Μετέωρα\"                  -> \"메테오라\"\n",
"    \"Καβάλα\"                   -> \"카발라\"\n",
"    \"Αμπελόκηποι Θεσσαλονίκης\" -> \"암벨로키피 테살로니키스\"\n"]

theorem lines20_ok : Part true lang macros vars (str "test") lines20 (str "test") := by
  apply piece_of
  · dsimp only [lines20]; repeat (first | exact .nil | apply Spells.cons)
  · decide +kernel

def lines21 : List String := [
"    \"Ελεύθερος\"                -> \"엘레프테로스\"\n",
"    \"Αρκτικός\"                 -> \"아르크티코스\"\n",
"    \"Δανιηλίδου\"               -> \"다니일리두\"\n",
"    \"Ευκλείδης\"                -> \"에프클리디스\"\n",
"    \"Κρινώ\"                    -> \"크리노\"\n",
"    \"γκρίζος\"                  -> \"그리조스\"\n",
"    \"βίντσι\"                   -> \"빈치\"\n",
"    \"Ευλαλία\"                  -> \"에블랄리아\"\n",
"    \"Γεώργιος\"                 -> \"예오르요스\"\n",
"    \"παπούτσια\"                -> \"파푸치아\"\n",
"    \"αυτός\"                    -> \"아프토스\"\n",
"    \"Ελύτης\"                   -> \"엘리티스\"\n",
"    \"χαϊδεύω\"                  -> \"하이데보\"\n",
"    \"Λέσβος\"                   -> \"레스보스\"\n",
"    \"Ηρακλής\"                  -> \"이라클리스\"\n",
"    \"Κοζάνη\"                   -> \"코자니\"\n",
"    \"άρπυια\"                   -> \"아르피아\"\n",
"    \"αυθεντικός\"               -> \"아프텐디코스\"\n",
"    \"Πεύκη\"                    -> \"페프키\"\n",
"    \"Λεωδάμας\"                 -> \"레오다마스\"\n",
"    \"Ιάκωβος\"                  -> \"이아코보스\"\n",
"    \"Κρήτη\"                    -> \"크리티\"\n",
"    \"Ευριδίκη\"                 -> \"에브리디키\"\n",
"    \"μωβ\"                      -> \"모브\"\n",
"    \"άγχος\"                    -> \"앙호스\"\n",
"    \"Στρογγυλή\"                -> \"스트롱길리\"\n",
"    \"Σέρρες\"                   -> \"세레스\"\n",
"    \"Αλεξάνδρεια\"              -> \"알렉산드리아\"\n",
"    \"Ιωσήφ\"                    -> \"이오시프\"\n",
"    \"Μελπομένη\"                -> \"멜포메니\"\n",
"    \"σύγχρονος\"                -> \"싱흐로노스\"\n",
"    \"Συκιές\"                   -> \"시키에스\"\n",
"    \"Ευστάθιος\"                -> \"에프스타티오스\"\n",
"    \"Ταλθύβιος\"                -> \"탈티비오스\"\n",
"    \"πατριάς\"                  -> \"파트리아스\"\n",
"    \"Θεοφάνης\"                 -> \"테오파니스\"\n",
"    \"ακαδημία\"                 -> \"아카디미아\"\n",
"    \"κινηματογράφος\"           -> \"키니마토그라포스\"\n",
"    \"Ζωγράφου\"                 -> \"조그라푸\"\n",
"    \"άυλος\"                    -> \"아일로스\"\n",
"    \"Αλεξανδρούπολη\"           -> \"알렉산드루폴리\"\n",
"    \"Σύνταγμα\"                 -> \"신다그마\"\n",
"    \"Φοίβη\"                    -> \"피비\"\n",
"    \"ελεγκτής\"                 -> \"엘렝티스\"\n",
"    \"ρίχνω\"                    -> \"리흐노\"\n",
"    \"Πλάκα\"                    -> \"플라카\"\n",
"    \"Ξανθίππη\"                 -> \"크산티피\"\n",
"    \"Κορυδαλλός\"               -> \"코리달로스\"\n",
"    \"Οδυσσέας\"                 -> \"오디세아스\"\n",
"    \"Αγία Παρασκευή\"           -> \"아이아 파라스케비\"\n",
"    \"Παναθηναϊκός\"             -> \"파나티나이코스\"\n",
"    \"Συγγραφείς\"               -> \"싱그라피스\"\n",
"    \"γκαλερί\"                  -> \"갈레리\"\n",
"    \"γάντζος\"                  -> \"간조스\"\n",
"    \"λεπτό\"                    -> \"렙토\"\n",
"    \"Τιμόθεος\"                 -> \"티모테오스\"\n",
"    \"Αυξεντίου\"                -> \"아프크센디우\"\n",
"    \"δόγης\"                    -> \"도이스\"\n",
"    \"Λεύκτρα\"                  -> \"레프크트라\"\n",
"    \"Γιώργος\"                  -> \"요르고스\"\n",
"    \"Άγκυρα\"                   -> \"앙기라\"\n",
"    \"Λάιος\"                    -> \"라이오스\"\n",
"    \"κανένα\"                   -> \"카네나\"\n",
"    \"Δέσποινα\"                 -> \"데스피나\"\n",
"    \"Μαργαρίτα\"                -> \"마르가리타\"\n",
"    \"Πολίχνη Θεσσαλονίκης\"     -> \"폴리흐니 테살로니키스\"\n",
"    \"μοιραία\"                  -> \"미레아\"\n",
"    \"ψωμί\"                     -> \"프소미\"\n"]

theorem lines21_ok : Part true lang macros vars (str "test") lines21 (str "test") := by
  apply piece_of
  · dsimp only [lines21]; repeat (first | exact .nil | apply Spells.cons)
  · decide +kernel

def lines22 : List String := [
"    \"μυρμήγκι\"                 -> \"미르밍기\"\n",
"    \"Ησαΐας\"                   -> \"이사이아스\"\n",
"    \"Ιωακείμ\"                  -> \"이오아킴\"\n",
"    \"ξεϋφαίνω\"                 -> \"크세이페노\"\n",
"    \"Χαριστέας\"                -> \"하리스테아스\"\n",
"    \"Ειρήνη\"                   -> \"이리니\"\n",
"    \"μουσική\"                  -> \"무시키\"\n",
"    \"Θεσσαλονίκη\"              -> \"테살로니키\"\n",
"    \"Μαρούσι\"                  -> \"마루시\"\n",
"    \"Σταυρούπολη\"              -> \"스타브루폴리\"\n",
"    \"γιατρός\"                  -> \"야트로스\"\n",
"    \"Αντώνης\"                  -> \"안도니스\"\n",
"    \"Νέστωρ\"                   -> \"네스토르\"\n",
"    \"Άγγελος\"                  -> \"앙겔로스\"\n",
"    \"Ιερεμίας\"                 -> \"이에레미아스\"\n",
"    \"ευφορία\"                  -> \"에포리아\"\n",
"    \"Εύβοια\"                   -> \"에비아\"\n",
"    \"δέντρο\"                   -> \"덴드로\"\n",
"    \"Ελλάδα\"                   -> \"엘라다\"\n",
"    \"Καλλιθέα\"                 -> \"칼리테아\"\n",
"    \"Ερμιόνη\"                  -> \"에르미오니\"\n",
"    \"Παγδατής\"                 -> \"파그다티스\"\n",
"    \"κοινή\"                    -> \"키니\"\n",
"    \"Λαμία\"                    -> \"라미아\"\n",
"    \"Κάλχας\"                   -> \"칼하스\"\n",
"    \"Ανδρέας\"                  -> \"안드레아스\"\n",
"    \"χρώματα\"                  -> \"흐로마타\"\n",
"    \"Θεσσαλία\"                 -> \"테살리아\"\n",
"    \"Πέτρος\"                   -> \"페트로스\"\n",
"    \"Ελευσίνα\"                 -> \"엘레프시나\"\n",
"    \"Μούσχουρη\"                -> \"무스후리\"\n",
"    \"Στέφανος\"                 -> \"스테파노스\"\n",
"    \"Παπαδόπουλος\"             -> \"파파도풀로스\"\n",
"    \"Λειψοί\"                   -> \"립시\"\n",
"    \"πηγή\"                     -> \"피이\"\n",
"    \"ευχαριστώ\"                -> \"에프하리스토\"\n",
"    \"Κατσουράνης\"              -> \"카추라니스\"\n",
"    \"Αργυρούπολη\"              -> \"아르이루폴리\"\n",
"    \"Πρίαμος\"                  -> \"프리아모스\"\n",
"    \"Αλέξης\"                   -> \"알렉시스\"\n",
"    \"Σπυρίδων\"                 -> \"스피리돈\"\n",
"    \"Κερατσίνι\"                -> \"케라치니\"\n",
"    \"Νάρκισσος\"                -> \"나르키소스\"\n",
"    \"εκφράσω\"                  -> \"엑프라소\"\n",
"    \"Τζόρβας\"                  -> \"조르바스\"\n",
"    \"Υπατία\"                   -> \"이파티아\"\n",
"    \"Κασσάνδρα\"                -> \"카산드라\"\n",
"    \"Βασίλης\"                  -> \"바실리스\"\n",
"    \"Σελήνη\"                   -> \"셀리니\"\n",
"    \"Ταΰγετος\"                 -> \"타이예토스\"\n",
"    \"Μπενάκη\"                  -> \"베나키\"\n",
"    \"Γαλάτσι\"                  -> \"갈라치\"\n",
"    \"Στυλιανός\"                -> \"스틸리아노스\"\n",
"    \"Κόων\"                     -> \"코온\"\n",
"    \"Πάτρα\"                    -> \"파트라\"\n",
"    \"Γαύδος\"                   -> \"가브도스\"\n",
"    \"Αιγάλεω\"                  -> \"에갈레오\"\n",
"    \"απηύδησα\"                 -> \"아피브디사\"\n",
"    \"Διογένης\"                 -> \"디오예니스\"\n",
"    \"Λουκά\"                    -> \"루카\"\n",
"    \"έυπνον\"                   -> \"에이프논\"\n",
"    \"Λεωνίδας\"                 -> \"레오니다스\"\n",
"    \"Δράμα\"                    -> \"드라마\"\n",
"    \"Θήβα\"                     -> \"티바\"\n",
"    \"Πηνελόπη\"                 -> \"피넬로피\"\n",
"    \"Πελασγία\"                 -> \"펠라스이아\"\n",
"    \"μπωλ\"                     -> \"볼\"\n",
"    \"χέρι\"                     -> \"헤리\"\n",
"    \"Χαλάνδρι\"                 -> \"할란드리\"\n",
"    \"Αρμονία\"                  -> \"아르모니아\"\n",
"    \"αισθάνομαι\"               -> \"에스타노메\"\n"]

theorem lines22_ok : Part true lang macros vars (str "test") lines22 (str "test") := by
  apply piece_of
  · dsimp only [lines22]; repeat (first | exact .nil | apply Spells.cons)
  · decide +kernel

def lines23 : List String := [
"    \"Ζωή\"                      -> \"조이\"\n",
"    \"Καλαμαριά\"                -> \"칼라마리아\"\n",
"    \"μουσακάς\"                 -> \"무사카스\"\n",
"    \"Ιάνθη\"                    -> \"이안티\"\n",
"    \"Γλυφάδα\"                  -> \"글리파다\"\n",
"    \"Δανάη\"                    -> \"다나이\"\n",
"    \"παύω\"                     -> \"파보\"\n",
"    \"επηυξημένος\"              -> \"에피프크시메노스\"\n",
"    \"Γιάννης\"                  -> \"야니스\"\n",
"    \"Θεόφιλος\"                 -> \"테오필로스\"\n",
"    \"έκκλησιν\"                 -> \"에클리신\"\n",
"    \"βασιλιάς\"                 -> \"바실리아스\"\n",
"    \"Ιαλυσός\"                  -> \"이알리소스\"\n",
"    \"μαύρος\"                   -> \"마브로스\"\n",
"    \"ταυ\"                      -> \"타프\"\n",
"    \"Δάφνη\"                    -> \"다프니\"\n",
"\n"]

theorem lines23_ok : Part true lang macros vars (str "test") lines23 (str "test") := by
  apply piece_of
  · dsimp only [lines23]; repeat (first | exact .nil | apply Spells.cons)
  · decide +kernel

end Verif.Specs.Ell
