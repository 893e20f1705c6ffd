import Verif.Proofs.Bundle

/-! specs/bul.hsl, generated by tools/gen_specs.py. -/

set_option Elab.async false

namespace Verif.Specs.Bul

open Hsl

/-- The language of the spec. -/
def lang : Language :=
  ⟨str "bul", (str "bg", str "bul"), str "Bulgarian", str "불가리아어", str "Cyrl", [str "cyrillic[bg]"]⟩

def macros : List (Bytes × Bytes) := [(str "@", str "<vowels>")]

def vars : List (Bytes × List Bytes) := [(str "cs", [str "б", str "в", str "г", str "д", str "ж", str "з", str "к", str "л", str "м", str "н", str "п", str "р", str "с", str "т", str "ф", str "х", str "ц", str "ч", str "ш", str "щ"]),
  (str "vl", [str "к", str "п", str "с", str "т", str "ф", str "х", str "ц", str "ч", str "ш", str "щ"]),
  (str "vowels", [str "а", str "е", str "и", str "й", str "о", str "у", str "ъ", str "ь", str "ю", str "я"])]

def keys : List (Rune × List Rune) := []

def kept : List Rune := []

def head : List String := [
"lang:\n",
"    id       = \"bul\"\n",
"    codes    = \"bg\", \"bul\"\n",
"    english  = \"Bulgarian\"\n",
"    korean   = \"불가리아어\"\n",
"    script   = \"Cyrl\"\n",
"    translit = \"cyrillic[bg]\"\n",
"\n",
"config:\n",
"    author = \"Brian Jongseong Park <iceager@gmail.com>\"\n",
"    stage  = \"draft\"\n",
"\n",
"macros:\n",
"    \"@\" = \"<vowels>\"\n",
"\n",
"vars:\n",
"    \"cs\"     = \"б\", \"в\", \"г\", \"д\", \"ж\", \"з\", \"к\", \"л\", \"м\", \"н\", \"п\", \"р\", \"с\", \"т\", \"ф\", \"х\", \"ц\", \"ч\", \"ш\", \"щ\"\n",
"    \"vl\"     = \"к\", \"п\", \"с\", \"т\", \"ф\", \"х\", \"ц\", \"ч\", \"ш\", \"щ\"\n",
"    \"vowels\" = \"а\", \"е\", \"и\", \"й\", \"о\", \"у\", \"ъ\", \"ь\", \"ю\", \"я\"\n",
"\n"]

theorem head_ok : ∃ xs, Reads [] (runes (text head)) xs (str "vars") ∧ headOk lang macros vars keys kept xs = true := by
  apply piece_of
  · dsimp only [head]; repeat (first | exact .nil | apply Spells.cons)
  · decide +kernel

def lines1 : List String := [
"rewrite:\n",
"    \"град\"       -> \"град-\"\n",
"    \"бб\"         -> \"б\"\n",
"    \"вв\"         -> \"в\"\n",
"    \"вф\"         -> \"ф\"\n",
"    \"гг\"         -> \"г\"\n",
"    \"дд\"         -> \"д\"\n",
"    \"дц\"         -> \"ц\"\n",
"    \"дч\"         -> \"ч\"\n",
"    \"жж\"         -> \"ж\"\n",
"    \"зз\"         -> \"з\"\n"]

theorem lines1_ok : Part true lang macros vars (str "vars") lines1 (str "rewrite") := by
  apply piece_of
  · dsimp only [lines1]; repeat (first | exact .nil | apply Spells.cons)
  · decide +kernel

def lines2 : List String := [
"    \"зс\"         -> \"с\"\n",
"    \"кк\"         -> \"к\"\n",
"    \"лл\"         -> \"л\"\n",
"    \"{@}мм{@}\"   -> \"м,м\"\n",
"    \"мм\"         -> \"м\"\n",
"    \"{@}нн{@}\"   -> \"н,н\"\n",
"    \"нн\"         -> \"н\"\n",
"    \"пп\"         -> \"п\"\n",
"    \"рр\"         -> \"р\"\n",
"    \"сс\"         -> \"с\"\n"]

theorem lines2_ok : Part true lang macros vars (str "rewrite") lines2 (str "rewrite") := by
  apply piece_of
  · dsimp only [lines2]; repeat (first | exact .nil | apply Spells.cons)
  · decide +kernel

def lines3 : List String := [
"    \"тт\"         -> \"т\"\n",
"    \"тц\"         -> \"ц\"\n",
"    \"тч\"         -> \"ч\"\n",
"    \"фф\"         -> \"ф\"\n",
"    \"хх\"         -> \"х\"\n",
"    \"цц\"         -> \"ц\"\n",
"    \"чч\"         -> \"ч\"\n",
"    \"шш\"         -> \"ш\"\n",
"    \"щ\"          -> \"шт\"\n",
"    \"ий\"         -> \"и\"\n"]

theorem lines3_ok : Part true lang macros vars (str "rewrite") lines3 (str "rewrite") := by
  apply piece_of
  · dsimp only [lines3]; repeat (first | exact .nil | apply Spells.cons)
  · decide +kernel

def lines4 : List String := [
"    \"дс$\"        -> \"ц\"\n",
"    \"дс{<cs>}\"   -> \"ц\"\n",
"    \"тс\"         -> \"ц\"\n",
"    \"дз\"         -> \"з\"\n",
"    \"нкт\"        -> \"Nт\"\n",
"    \"б{<vl>}\"    -> \"п\"\n",
"    \"б$\"         -> \"п\"\n",
"    \"в{<vl>}\"    -> \"ф\"\n",
"    \"в$\"         -> \"ф\"\n",
"    \"г{<vl>}\"    -> \"к\"\n"]

theorem lines4_ok : Part true lang macros vars (str "rewrite") lines4 (str "rewrite") := by
  apply piece_of
  · dsimp only [lines4]; repeat (first | exact .nil | apply Spells.cons)
  · decide +kernel

def lines5 : List String := [
"    \"г$\"         -> \"к\"\n",
"    \"д{<vl>}\"    -> \"т\"\n",
"    \"д$\"         -> \"т\"\n",
"    \"дж{<vl>}\"   -> \"ч\"\n",
"    \"дж$\"        -> \"ч\"\n",
"    \"ж{<vl>}\"    -> \"ш\"\n",
"    \"ж$\"         -> \"ш\"\n",
"    \"з{<vl>}\"    -> \"с\"\n",
"    \"з$\"         -> \"с\"\n",
"    \"б{<vl>}\"    -> \"п\"\n"]

theorem lines5_ok : Part true lang macros vars (str "rewrite") lines5 (str "rewrite") := by
  apply piece_of
  · dsimp only [lines5]; repeat (first | exact .nil | apply Spells.cons)
  · decide +kernel

def lines6 : List String := [
"    \"в{<vl>}\"    -> \"ф\"\n",
"    \"г{<vl>}\"    -> \"к\"\n",
"    \"д{<vl>}\"    -> \"т\"\n",
"    \"дж{<vl>}\"   -> \"ч\"\n",
"    \"ж{<vl>}\"    -> \"ш\"\n",
"    \"з{<vl>}\"    -> \"с\"\n",
"    \"^к\"         -> \"к;\"\n",
"    \"{<cs>}к\"    -> \"к;\"\n",
"    \"к{<vl>}\"    -> \"к,\"\n",
"    \"^п\"         -> \"п;\"\n"]

theorem lines6_ok : Part true lang macros vars (str "rewrite") lines6 (str "rewrite") := by
  apply piece_of
  · dsimp only [lines6]; repeat (first | exact .nil | apply Spells.cons)
  · decide +kernel

def lines7 : List String := [
"    \"{<cs>}п\"    -> \"п;\"\n",
"    \"п{<vl>}\"    -> \"п,\"\n",
"    \";\"          -> \"\"\n",
"    \"ш{<cs>}\"    -> \"сю\"\n",
"    \"ш$\"         -> \"си\"\n",
"    \"ш\"          -> \"сь\"\n",
"    \"^й{@}\"      -> \"ь\"\n",
"    \"{@}й{@}\"    -> \"ь\"\n",
"    \"й\"          -> \"и\"\n",
"    \"ю\"          -> \"ьу\"\n"]

theorem lines7_ok : Part true lang macros vars (str "rewrite") lines7 (str "rewrite") := by
  apply piece_of
  · dsimp only [lines7]; repeat (first | exact .nil | apply Spells.cons)
  · decide +kernel

def lines8 : List String := [
"    \"я\"          -> \"ьа\"\n",
"    \"{ж|з|ц|ч}ь\" -> \"\"\n",
"    \"ше\"         -> \"сье\"\n",
"    \"сье\"        -> \"с-ье\"\n",
"    \"{<cs>}ье\"   -> \"е\"\n",
"    \"дж{<cs>}\"   -> \"жи\"\n",
"    \"дж\"         -> \"ж\"\n",
"    \"ж{<cs>}\"    -> \"жу\"\n",
"    \"ч$\"         -> \"чи\"\n",
"    \"ч{<cs>}\"    -> \"чи\"\n"]

theorem lines8_ok : Part true lang macros vars (str "rewrite") lines8 (str "rewrite") := by
  apply piece_of
  · dsimp only [lines8]; repeat (first | exact .nil | apply Spells.cons)
  · decide +kernel

def lines9 : List String := [
"    \"^л\"         -> \"л;\"\n",
"    \"^м\"         -> \"м;\"\n",
"    \"^н\"         -> \"н;\"\n",
"    \"л$\"         -> \"л,\"\n",
"    \"м$\"         -> \"м,\"\n",
"    \"н$\"         -> \"н,\"\n",
"    \"л{@|м,|н,}\" -> \"л;\"\n",
"    \"м{@}\"       -> \"м;\"\n",
"    \"н{@}\"       -> \"н;\"\n",
"    \"л\"          -> \"л,\"\n"]

theorem lines9_ok : Part true lang macros vars (str "rewrite") lines9 (str "rewrite") := by
  apply piece_of
  · dsimp only [lines9]; repeat (first | exact .nil | apply Spells.cons)
  · decide +kernel

def lines10 : List String := [
"    \"м\"          -> \"м,\"\n",
"    \"н\"          -> \"н,\"\n",
"    \",,\"         -> \",\"\n",
"    \",;\"         -> \"\"\n",
"    \",л,\"        -> \"л,\"\n",
"    \",м,\"        -> \"м,\"\n",
"    \",н,\"        -> \"н,\"\n",
"    \"л{м;|н;}\"   -> \"л,\"\n",
"    \";|-\"        -> \"\"\n",
"\n"]

theorem lines10_ok : Part true lang macros vars (str "rewrite") lines10 (str "rewrite") := by
  apply piece_of
  · dsimp only [lines10]; repeat (first | exact .nil | apply Spells.cons)
  · decide +kernel

def lines11 : List String := [
"transcribe:\n",
"    \"б\"    -> \"ㅂ\"\n",
"    \"в\"    -> \"ㅂ\"\n",
"    \"г\"    -> \"ㄱ\"\n",
"    \"д\"    -> \"ㄷ\"\n",
"    \"ж\"    -> \"ㅈ\"\n",
"    \"з\"    -> \"ㅈ\"\n",
"    \"ж\"    -> \"ㅈ\"\n",
"    \"к,\"   -> \"-ㄱ\"\n",
"    \"к\"    -> \"ㅋ\"\n",
"    \"^л\"   -> \"ㄹ\"\n"]

theorem lines11_ok : Part true lang macros vars (str "rewrite") lines11 (str "transcribe") := by
  apply piece_of
  · dsimp only [lines11]; repeat (first | exact .nil | apply Spells.cons)
  · decide +kernel

def lines12 : List String := [
"    \"{,}л\" -> \"ㄹ\"\n",
"    \"л,\"   -> \"-ㄹ\"\n",
"    \"л\"    -> \"-ㄹㄹ\"\n",
"    \"м,\"   -> \"-ㅁ\"\n",
"    \"м\"    -> \"ㅁ\"\n",
"    \"н,\"   -> \"-ㄴ\"\n",
"    \"н\"    -> \"ㄴ\"\n",
"    \"N\"    -> \"-ㅇ\"\n",
"    \"п,\"   -> \"-ㅂ\"\n",
"    \"п\"    -> \"ㅍ\"\n"]

theorem lines12_ok : Part true lang macros vars (str "transcribe") lines12 (str "transcribe") := by
  apply piece_of
  · dsimp only [lines12]; repeat (first | exact .nil | apply Spells.cons)
  · decide +kernel

def lines13 : List String := [
"    \"р\"    -> \"ㄹ\"\n",
"    \"с\"    -> \"ㅅ\"\n",
"    \"т\"    -> \"ㅌ\"\n",
"    \"ф\"    -> \"ㅍ\"\n",
"    \"х\"    -> \"ㅎ\"\n",
"    \"ц\"    -> \"ㅊ\"\n",
"    \"ч\"    -> \"ㅊ\"\n",
"    \"ьа\"   -> \"ㅑ\"\n",
"    \"ье\"   -> \"ㅖ\"\n",
"    \"ьи\"   -> \"ㅣ\"\n"]

theorem lines13_ok : Part true lang macros vars (str "transcribe") lines13 (str "transcribe") := by
  apply piece_of
  · dsimp only [lines13]; repeat (first | exact .nil | apply Spells.cons)
  · decide +kernel

def lines14 : List String := [
"    \"ьо\"   -> \"ㅛ\"\n",
"    \"ьу\"   -> \"ㅠ\"\n",
"    \"ьъ\"   -> \"ㅕ\"\n",
"    \"а\"    -> \"ㅏ\"\n",
"    \"е\"    -> \"ㅔ\"\n",
"    \"и\"    -> \"ㅣ\"\n",
"    \"о\"    -> \"ㅗ\"\n",
"    \"у\"    -> \"ㅜ\"\n",
"    \"ъ\"    -> \"ㅓ\"\n",
"\n"]

theorem lines14_ok : Part true lang macros vars (str "transcribe") lines14 (str "transcribe") := by
  apply piece_of
  · dsimp only [lines14]; repeat (first | exact .nil | apply Spells.cons)
  · decide +kernel

def lines15 : List String := [
"test:\n",
"    \"Иван Мърквичка\"              -> \"이반 머르크비치카\"\n",
"    \"Стара Загора\"                -> \"스타라 자고라\"\n",
"    \"София\"                       -> \"소피야\"\n",
"    \"Алеко Константинов\"          -> \"알레코 콘스탄티노프\"\n",
"    \"Смолян\"                      -> \"스몰랸\"\n",
"    \"Илия Бешков\"                 -> \"일리야 베슈코프\"\n",
"    \"Родопи\"                      -> \"로도피\"\n",
"    \"Девня\"                       -> \"데브냐\"\n",
"    \"Мусала\"                      -> \"무살라\"\n",
"    \"Тодор Живков\"                -> \"토도르 지프코프\"\n",
"    \"Григор Димитров\"             -> \"그리고르 디미트로프\"\n",
"    \"Иван Павлов\"                 -> \"이반 파블로프\"\n",
"    \"Асен Йорданов\"               -> \"아센 요르다노프\"\n",
"    \"Ренета Инджова\"              -> \"레네타 인조바\"\n",
"    \"Пенчо Славейков\"             -> \"펜초 슬라베이코프\"\n",
"    \"Златоград\"                   -> \"즐라토그라드\"\n",
"    \"Петър Берон\"                 -> \"페터르 베론\"\n",
"    \"Банско\"                      -> \"반스코\"\n",
"    \"Сливен\"                      -> \"슬리벤\"\n",
"    \"Крум\"                        -> \"크룸\"\n",
"    \"Добрич\"                      -> \"도브리치\"\n",
"    \"Йордан Лечков\"               -> \"요르단 레치코프\"\n",
"    \"Мелник\"                      -> \"멜니크\"\n",
"    \"Михаил Шишман\"               -> \"미하일 시슈만\"\n",
"    \"Петър Богдан\"                -> \"페터르 보그단\"\n",
"    \"Симеон Велики\"               -> \"시메온 벨리키\"\n",
"    \"Свещари\"                     -> \"스베슈타리\"\n",
"    \"Иван Евстратиев Гешов\"       -> \"이반 에프스트라티에프 게쇼프\"\n",
"    \"Гаврил Радомир\"              -> \"가브릴 라도미르\"\n",
"    \"Галина Дурмушлийска\"         -> \"갈리나 두르무슐리스카\"\n",
"    \"Пещера\"                      -> \"페슈테라\"\n",
"    \"Григор Пърличев\"             -> \"그리고르 퍼를리체프\"\n",
"    \"Цанко Дюстабанов\"            -> \"찬코 듀스타바노프\"\n",
"    \"Созопол\"                     -> \"소조폴\"\n",
"    \"Казанлък\"                    -> \"카잔러크\"\n",
"    \"Рила\"                        -> \"릴라\"\n",
"    \"Евксиноград\"                 -> \"에프크시노그라드\"\n",
"    \"Гена Димитрова\"              -> \"게나 디미트로바\"\n",
"    \"Христо Явашев\"               -> \"흐리스토 야바셰프\"\n",
"    \"Цветан Тодоров\"              -> \"츠베탄 토도로프\"\n",
"    \"Екатерина Дафовска\"          -> \"에카테리나 다포프스카\"\n",
"    \"Весела Лечева\"               -> \"베셀라 레체바\"\n",
"    \"Иван Милев\"                  -> \"이반 밀레프\"\n",
"    \"Христо Стоичков\"             -> \"흐리스토 스토이치코프\"\n",
"    \"Александър Райчев\"           -> \"알렉산더르 라이체프\"\n",
"    \"Търговище\"                   -> \"터르고비슈테\"\n",
"    \"Бургас\"                      -> \"부르가스\"\n",
"    \"Никола Вапцаров\"             -> \"니콜라 밥차로프\"\n",
"    \"Димитър Бербатов\"            -> \"디미터르 베르바토프\"\n",
"    \"Юлия Кръстева\"               -> \"율리야 크러스테바\"\n",
"    \"Ралица\"                      -> \"랄리차\"\n",
"    \"Иван Рилски\"                 -> \"이반 릴스키\"\n",
"    \"Димитър Механджийски\"        -> \"디미터르 메한지스키\"\n",
"    \"Николай Гяуров\"              -> \"니콜라이 갸우로프\"\n",
"    \"Петрич\"                      -> \"페트리치\"\n",
"    \"Паисий Хилендарски\"          -> \"파이시 힐렌다르스키\"\n",
"    \"Варна\"                       -> \"바르나\"\n"]

theorem lines15_ok : Part true lang macros vars (str "transcribe") lines15 (str "test") := by
  apply piece_of
  · dsimp only [lines15]; repeat (first | exact .nil | apply Spells.cons)
  · decide +kernel

def lines16 : List String := [
"    \"Мария Гроздева\"              -> \"마리야 그로즈데바\"\n",
"    \"Кърджали\"                    -> \"커르잘리\"\n",
"    \"Стилиян Петров\"              -> \"스틸리얀 페트로프\"\n",
"    \"Анна-Мария Равнополска-Дийн\" -> \"안나마리야 라브노폴스카딘\"\n",
"    \"Златьо Бояджиев\"             -> \"즐라툐 보야지에프\"\n",
"    \"Дуранкулак\"                  -> \"두란쿨라크\"\n",
"    \"Людмила Дяковска\"            -> \"류드밀라 댜코프스카\"\n",
"    \"Исперих\"                     -> \"이스페리흐\"\n",
"    \"Христо Ботев\"                -> \"흐리스토 보테프\"\n",
"    \"Плевен\"                      -> \"플레벤\"\n",
"    \"Райна Кабаиванска\"           -> \"라이나 카바이반스카\"\n",
"    \"Стефка Костадинова\"          -> \"스테프카 코스타디노바\"\n",
"    \"Кюстендил\"                   -> \"큐스텐딜\"\n",
"    \"Асеновград\"                  -> \"아세노브그라드\"\n",
"    \"Григорий Цамблак\"            -> \"그리고리 참블라크\"\n",
"    \"Несебър\"                     -> \"네세버르\"\n",
"    \"Матей Казийски\"              -> \"마테이 카지스키\"\n",
"    \"Емил Костадинов\"             -> \"에밀 코스타디노프\"\n",
"    \"Мадара\"                      -> \"마다라\"\n",
"    \"Панагюрище\"                  -> \"파나규리슈테\"\n",
"    \"Малко Търново\"               -> \"말코 터르노보\"\n",
"    \"Драган Цанков\"               -> \"드라간 찬코프\"\n",
"    \"Пловдив\"                     -> \"플로브디프\"\n",
"    \"Пирин\"                       -> \"피린\"\n",
"    \"Теодосий Синаитски\"          -> \"테오도시 시나이츠키\"\n",
"    \"Георги Наджаков\"             -> \"게오르기 나자코프\"\n",
"    \"Добърско\"                    -> \"도버르스코\"\n",
"    \"Стефан Стамболов\"            -> \"스테판 스탐볼로프\"\n",
"    \"Андрей Луканов\"              -> \"안드레이 루카노프\"\n",
"    \"Константин Тих\"              -> \"콘스탄틴 티흐\"\n",
"    \"Елена Йончева\"               -> \"엘레나 욘체바\"\n",
"    \"Искър\"                       -> \"이스커르\"\n",
"    \"Борис Христов\"               -> \"보리스 흐리스토프\"\n",
"\n"]

theorem lines16_ok : Part true lang macros vars (str "test") lines16 (str "test") := by
  apply piece_of
  · dsimp only [lines16]; repeat (first | exact .nil | apply Spells.cons)
  · decide +kernel

/-- The lines of the file. -/
def lines : List String := head ++ (lines1 ++ (lines2 ++ (lines3 ++ (lines4 ++ (lines5 ++ (lines6 ++ (lines7 ++ (lines8 ++ (lines9 ++ (lines10 ++ (lines11 ++ (lines12 ++ (lines13 ++ (lines14 ++ (lines15 ++ (lines16))))))))))))))))

/-- The file is a spec with checked rules. -/
theorem sound : Sound (text lines) lang := sound_of head_ok (lines1_ok.append (lines2_ok.append (lines3_ok.append (lines4_ok.append (lines5_ok.append (lines6_ok.append (lines7_ok.append (lines8_ok.append (lines9_ok.append (lines10_ok.append (lines11_ok.append (lines12_ok.append (lines13_ok.append (lines14_ok.append (lines15_ok.append (lines16_ok)))))))))))))))) (by decide +kernel)

end Verif.Specs.Bul
