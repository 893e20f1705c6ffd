import Verif.Proofs.Bundle

/-! specs/rus.hsl, generated by tools/gen_specs.py. -/

set_option Elab.async false

namespace Verif.Specs.Rus

open Hsl

/-- The language of the spec. -/
def lang : Language :=
  ⟨str "rus", (str "ru", str "rus"), str "Russian", str "러시아어", str "Cyrl", [str "cyrillic[ru]"]⟩

def macros : List (Bytes × Bytes) := [(str "@", str "<vowels>")]

def vars : List (Bytes × List Bytes) := [(str "cs", [str "б", str "в", str "г", str "д", str "ж", str "з", str "к", str "л", str "м", str "н", str "п", str "р", str "с", str "т", str "ф", str "х", str "ц", str "ч", str "ш", str "щ"]),
  (str "vl", [str "к", str "п", str "с", str "т", str "ф", str "х", str "ц", str "ч", str "ш", str "щ"]),
  (str "vowels", [str "а", str "е", str "ё", str "и", str "й", str "о", str "у", str "ы", str "ъ", str "ь", str "э", str "ю", str "я"])]

def keys : List (Rune × List Rune) := []

def kept : List Rune := []

def head : List String := [
"lang:\n",
"    id       = \"rus\"\n",
"    codes    = \"ru\", \"rus\"\n",
"    english  = \"Russian\"\n",
"    korean   = \"러시아어\"\n",
"    script   = \"Cyrl\"\n",
"    translit = \"cyrillic[ru]\"\n",
"\n",
"config:\n",
"    author = \"Brian Jongseong Park <iceager@gmail.com>\"\n",
"    stage  = \"draft\"\n",
"\n",
"macros:\n",
"    \"@\" = \"<vowels>\"\n",
"\n",
"vars:\n",
"    \"cs\"     = \"б\", \"в\", \"г\", \"д\", \"ж\", \"з\", \"к\", \"л\", \"м\", \"н\", \"п\", \"р\", \"с\", \"т\", \"ф\", \"х\", \"ц\", \"ч\", \"ш\", \"щ\"\n",
"    \"vl\"     = \"к\", \"п\", \"с\", \"т\", \"ф\", \"х\", \"ц\", \"ч\", \"ш\", \"щ\"\n",
"    \"vowels\" = \"а\", \"е\", \"ё\", \"и\", \"й\", \"о\", \"у\", \"ы\", \"ъ\", \"ь\", \"э\", \"ю\", \"я\"\n",
"\n"]

theorem head_ok : ∃ xs, Reads [] (runes (text head)) xs (str "vars") ∧ headOk lang macros vars keys kept xs = true := by
  apply piece_of
  · dsimp only [head]; repeat (first | exact .nil | apply Spells.cons)
  · decide +kernel

def lines1 : List String := [
"rewrite:\n",
"    \"град\"           -> \"град-\"\n",
"    \"город\"          -> \"город-\"\n",
"    \"^ль\"            -> \"л-ь\"\n",
"    \"{л|м|н}ь$\"      -> \"\"\n",
"    \"{л|м|н}ь{<cs>}\" -> \"\"\n",
"    \"бб\"             -> \"б\"\n",
"    \"вв\"             -> \"в\"\n",
"    \"гг\"             -> \"г\"\n",
"    \"дд\"             -> \"д\"\n",
"    \"дц\"             -> \"ц\"\n"]

theorem lines1_ok : Part true lang macros vars (str "vars") lines1 (str "rewrite") := by
  apply piece_of
  · dsimp only [lines1]; repeat (first | exact .nil | apply Spells.cons)
  · decide +kernel

def lines2 : List String := [
"    \"дч\"             -> \"ч\"\n",
"    \"жж\"             -> \"ж\"\n",
"    \"зз\"             -> \"з\"\n",
"    \"кк\"             -> \"к\"\n",
"    \"лл\"             -> \"л\"\n",
"    \"{@}мм{@}\"       -> \"м,м\"\n",
"    \"мм\"             -> \"м\"\n",
"    \"{@}нн{@}\"       -> \"н,н\"\n",
"    \"нн\"             -> \"н\"\n",
"    \"пп\"             -> \"п\"\n"]

theorem lines2_ok : Part true lang macros vars (str "rewrite") lines2 (str "rewrite") := by
  apply piece_of
  · dsimp only [lines2]; repeat (first | exact .nil | apply Spells.cons)
  · decide +kernel

def lines3 : List String := [
"    \"рр\"             -> \"р\"\n",
"    \"сс\"             -> \"с\"\n",
"    \"тт\"             -> \"т\"\n",
"    \"тц\"             -> \"ц\"\n",
"    \"тч\"             -> \"ч\"\n",
"    \"фф\"             -> \"ф\"\n",
"    \"хх\"             -> \"х\"\n",
"    \"цц\"             -> \"ц\"\n",
"    \"чч\"             -> \"ч\"\n",
"    \"шш\"             -> \"ш\"\n"]

theorem lines3_ok : Part true lang macros vars (str "rewrite") lines3 (str "rewrite") := by
  apply piece_of
  · dsimp only [lines3]; repeat (first | exact .nil | apply Spells.cons)
  · decide +kernel

def lines4 : List String := [
"    \"щщ\"             -> \"щ\"\n",
"    \"ий\"             -> \"и\"\n",
"    \"ый\"             -> \"ы\"\n",
"    \"дс$\"            -> \"ц\"\n",
"    \"дс{<cs>}\"       -> \"ц\"\n",
"    \"тс\"             -> \"ц\"\n",
"    \"дз\"             -> \"з\"\n",
"    \"дж\"             -> \"ж\"\n",
"    \"нкт\"            -> \"Nт\"\n",
"    \"б{<vl>}\"        -> \"п\"\n"]

theorem lines4_ok : Part true lang macros vars (str "rewrite") lines4 (str "rewrite") := by
  apply piece_of
  · dsimp only [lines4]; repeat (first | exact .nil | apply Spells.cons)
  · decide +kernel

def lines5 : List String := [
"    \"б$\"             -> \"п\"\n",
"    \"в{<vl>}\"        -> \"ф\"\n",
"    \"в$\"             -> \"ф\"\n",
"    \"г{<vl>}\"        -> \"к\"\n",
"    \"г$\"             -> \"к\"\n",
"    \"д{<vl>}\"        -> \"т\"\n",
"    \"д$\"             -> \"т\"\n",
"    \"ж{<vl>}\"        -> \"ш\"\n",
"    \"ж$\"             -> \"ш\"\n",
"    \"з{<vl>}\"        -> \"с\"\n"]

theorem lines5_ok : Part true lang macros vars (str "rewrite") lines5 (str "rewrite") := by
  apply piece_of
  · dsimp only [lines5]; repeat (first | exact .nil | apply Spells.cons)
  · decide +kernel

def lines6 : List String := [
"    \"з$\"             -> \"с\"\n",
"    \"^к\"             -> \"к;\"\n",
"    \"к{<vl>}\"        -> \"к,\"\n",
"    \"^п\"             -> \"п;\"\n",
"    \"п{<vl>}\"        -> \"п,\"\n",
"    \"^т\"             -> \"т;\"\n",
"    \"т{<vl>}\"        -> \"т,\"\n",
"    \"^ф\"             -> \"ф;\"\n",
"    \"ф{<vl>}\"        -> \"п,\"\n",
"    \";\"              -> \"\"\n"]

theorem lines6_ok : Part true lang macros vars (str "rewrite") lines6 (str "rewrite") := by
  apply piece_of
  · dsimp only [lines6]; repeat (first | exact .nil | apply Spells.cons)
  · decide +kernel

def lines7 : List String := [
"    \",к,\"            -> \",к\"\n",
"    \",п,\"            -> \",п\"\n",
"    \",т,\"            -> \",т\"\n",
"    \"{ж|з|ц|ч}ё\"     -> \"о\"\n",
"    \"{ж|з|ц|ч}ю\"     -> \"у\"\n",
"    \"{ж|з|ц|ч}я\"     -> \"а\"\n",
"    \"^э\"             -> \"е\"\n",
"    \"{@|ъ|ь}э\"       -> \"е\"\n",
"    \"щ\"              -> \"ш\"\n",
"    \"ше\"             -> \"с-е\"\n"]

theorem lines7_ok : Part true lang macros vars (str "rewrite") lines7 (str "rewrite") := by
  apply piece_of
  · dsimp only [lines7]; repeat (first | exact .nil | apply Spells.cons)
  · decide +kernel

def lines8 : List String := [
"    \"{<cs>}е\"        -> \"э\"\n",
"    \"ша\"             -> \"ся\"\n",
"    \"шо\"             -> \"сё\"\n",
"    \"шу\"             -> \"сю\"\n",
"    \"ш{и|й|ы|ъ|ь}\"   -> \"с\"\n",
"    \"ш\"              -> \"сь\"\n",
"    \"ч$\"             -> \"чь\"\n",
"    \"ч{<cs>}\"        -> \"чь\"\n",
"    \"^л\"             -> \"л;\"\n",
"    \"^м\"             -> \"м;\"\n"]

theorem lines8_ok : Part true lang macros vars (str "rewrite") lines8 (str "rewrite") := by
  apply piece_of
  · dsimp only [lines8]; repeat (first | exact .nil | apply Spells.cons)
  · decide +kernel

def lines9 : List String := [
"    \"^н\"             -> \"н;\"\n",
"    \"л$\"             -> \"л,\"\n",
"    \"м$\"             -> \"м,\"\n",
"    \"н$\"             -> \"н,\"\n",
"    \"л{@|м,|н,}\"     -> \"л;\"\n",
"    \"м{@|л}\"         -> \"м;\"\n",
"    \"н{@|л}\"         -> \"н;\"\n",
"    \"л\"              -> \"л,\"\n",
"    \"м\"              -> \"м,\"\n",
"    \"н\"              -> \"н,\"\n"]

theorem lines9_ok : Part true lang macros vars (str "rewrite") lines9 (str "rewrite") := by
  apply piece_of
  · dsimp only [lines9]; repeat (first | exact .nil | apply Spells.cons)
  · decide +kernel

def lines10 : List String := [
"    \",,\"             -> \",\"\n",
"    \",;\"             -> \"\"\n",
"    \",л,\"            -> \"л,\"\n",
"    \",м,\"            -> \"м,\"\n",
"    \",н,\"            -> \"н,\"\n",
"    \"л{м;|н;}\"       -> \"л,\"\n",
"    \";|-\"            -> \"\"\n",
"\n"]

theorem lines10_ok : Part true lang macros vars (str "rewrite") lines10 (str "rewrite") := by
  apply piece_of
  · dsimp only [lines10]; repeat (first | exact .nil | apply Spells.cons)
  · decide +kernel

def lines11 : List String := [
"transcribe:\n",
"    \"б\"  -> \"ㅂ\"\n",
"    \"в\"  -> \"ㅂ\"\n",
"    \"г\"  -> \"ㄱ\"\n",
"    \"д\"  -> \"ㄷ\"\n",
"    \"ж\"  -> \"ㅈ\"\n",
"    \"з\"  -> \"ㅈ\"\n",
"    \"ж\"  -> \"ㅈ\"\n",
"    \"к,\" -> \"-ㄱ\"\n",
"    \"к\"  -> \"ㅋ\"\n",
"    \"^л\" -> \"ㄹ\"\n"]

theorem lines11_ok : Part true lang macros vars (str "rewrite") lines11 (str "transcribe") := by
  apply piece_of
  · dsimp only [lines11]; repeat (first | exact .nil | apply Spells.cons)
  · decide +kernel

def lines12 : List String := [
"    \"л,\" -> \"-ㄹ\"\n",
"    \"л\"  -> \"-ㄹㄹ\"\n",
"    \"м,\" -> \"-ㅁ\"\n",
"    \"м\"  -> \"ㅁ\"\n",
"    \"н,\" -> \"-ㄴ\"\n",
"    \"н\"  -> \"ㄴ\"\n",
"    \"N\"  -> \"-ㅇ\"\n",
"    \"п,\" -> \"-ㅂ\"\n",
"    \"п\"  -> \"ㅍ\"\n",
"    \"р\"  -> \"ㄹ\"\n"]

theorem lines12_ok : Part true lang macros vars (str "transcribe") lines12 (str "transcribe") := by
  apply piece_of
  · dsimp only [lines12]; repeat (first | exact .nil | apply Spells.cons)
  · decide +kernel

def lines13 : List String := [
"    \"с\"  -> \"ㅅ\"\n",
"    \"т,\" -> \"-ㅅ\"\n",
"    \"т\"  -> \"ㅌ\"\n",
"    \"ф\"  -> \"ㅍ\"\n",
"    \"х\"  -> \"ㅎ\"\n",
"    \"ц\"  -> \"ㅊ\"\n",
"    \"ч\"  -> \"ㅊ\"\n",
"    \"а\"  -> \"ㅏ\"\n",
"    \"е\"  -> \"ㅖ\"\n",
"    \"ё\"  -> \"ㅛ\"\n"]

theorem lines13_ok : Part true lang macros vars (str "transcribe") lines13 (str "transcribe") := by
  apply piece_of
  · dsimp only [lines13]; repeat (first | exact .nil | apply Spells.cons)
  · decide +kernel

def lines14 : List String := [
"    \"и\"  -> \"ㅣ\"\n",
"    \"й\"  -> \"ㅣ\"\n",
"    \"о\"  -> \"ㅗ\"\n",
"    \"у\"  -> \"ㅜ\"\n",
"    \"ы\"  -> \"ㅣ\"\n",
"    \"ъ\"  -> \"ㅣ\"\n",
"    \"ь\"  -> \"ㅣ\"\n",
"    \"э\"  -> \"ㅔ\"\n",
"    \"ю\"  -> \"ㅠ\"\n",
"    \"я\"  -> \"ㅑ\"\n",
"\n"]

theorem lines14_ok : Part true lang macros vars (str "transcribe") lines14 (str "transcribe") := by
  apply piece_of
  · dsimp only [lines14]; repeat (first | exact .nil | apply Spells.cons)
  · decide +kernel

def lines15 : List String := [
"test:\n",
"    \"Надя\"         -> \"나댜\"\n",
"    \"Щирец\"        -> \"시레츠\"\n",
"    \"Игорь\"        -> \"이고리\"\n",
"    \"Аввакум\"      -> \"아바쿰\"\n",
"    \"Крылов\"       -> \"크릴로프\"\n",
"    \"Гоголь\"       -> \"고골\"\n",
"    \"Бобров\"       -> \"보브로프\"\n",
"    \"Владивосток\"  -> \"블라디보스토크\"\n",
"    \"Калмык\"       -> \"칼미크\"\n",
"    \"Капица\"       -> \"카피차\"\n",
"    \"Псков\"        -> \"프스코프\"\n",
"    \"Аксаков\"      -> \"악사코프\"\n",
"    \"Ефремов\"      -> \"예프레모프\"\n",
"    \"Манечка\"      -> \"마네치카\"\n",
"    \"Жадовская\"    -> \"자돕스카야\"\n",
"    \"Шишков\"       -> \"시시코프\"\n",
"    \"Соллогуб\"     -> \"솔로구프\"\n",
"    \"Брятск\"       -> \"브랴츠크\"\n",
"    \"Павел\"        -> \"파벨\"\n",
"    \"Глеб\"         -> \"글레프\"\n",
"    \"Андарбаг\"     -> \"안다르바크\"\n",
"    \"Петрозаводск\" -> \"페트로자보츠크\"\n",
"    \"Якутск\"       -> \"야쿠츠크\"\n",
"    \"Восход\"       -> \"보스호트\"\n",
"    \"Ойстрах\"      -> \"오이스트라흐\"\n",
"    \"Кыра\"         -> \"키라\"\n",
"    \"Алексей\"      -> \"알렉세이\"\n",
"    \"Сарапул\"      -> \"사라풀\"\n",
"    \"Петров\"       -> \"페트로프\"\n",
"    \"Кебеж\"        -> \"케베시\"\n",
"    \"Цветаева\"     -> \"츠베타예바\"\n",
"    \"Илья\"         -> \"일리야\"\n",
"    \"Марков\"       -> \"마르코프\"\n",
"    \"Алексеев\"     -> \"알렉세예프\"\n",
"    \"Таджикистан\"  -> \"타지키스탄\"\n",
"    \"Агрыз\"        -> \"아그리스\"\n",
"    \"Юрий\"         -> \"유리\"\n",
"    \"Егвекинот\"    -> \"예그베키노트\"\n",
"    \"Калининград\"  -> \"칼리닌그라드\"\n",
"    \"Тверь\"        -> \"트베리\"\n",
"    \"Гончаров\"     -> \"곤차로프\"\n",
"    \"Хабаровск\"    -> \"하바롭스크\"\n",
"    \"Мусоргский\"   -> \"무소륵스키\"\n",
"    \"Мценск\"       -> \"므첸스크\"\n",
"    \"Квас\"         -> \"크바스\"\n",
"    \"Стефан\"       -> \"스테판\"\n",
"    \"Славгород\"    -> \"슬라브고로드\"\n",
"    \"Юрга\"         -> \"유르가\"\n",
"    \"Премьер\"      -> \"프레미예르\"\n",
"    \"Белый\"        -> \"벨리\"\n",
"    \"Анна\"         -> \"안나\"\n",
"    \"Ленин\"        -> \"레닌\"\n",
"    \"Ростопчиня\"   -> \"로스톱치냐\"\n",
"    \"Зайчев\"       -> \"자이체프\"\n",
"    \"Волгоград\"    -> \"볼고그라드\"\n",
"    \"Веревкин\"     -> \"베렙킨\"\n",
"    \"Андрей\"       -> \"안드레이\"\n",
"    \"Цимлянск\"     -> \"치믈랸스크\"\n",
"    \"Одесса\"       -> \"오데사\"\n",
"    \"Майкоп\"       -> \"마이코프\"\n",
"    \"Максим\"       -> \"막심\"\n",
"    \"Лермонтов\"    -> \"레르몬토프\"\n",
"    \"Дмитрий\"      -> \"드미트리\"\n",
"    \"Вернадский\"   -> \"베르나츠키\"\n",
"    \"Иванов\"       -> \"이바노프\"\n",
"    \"Дьяково\"      -> \"디야코보\"\n",
"    \"Татьяна\"      -> \"타티야나\"\n",
"    \"Лопатка\"      -> \"로팟카\"\n",
"    \"Эртель\"       -> \"예르텔\"\n",
"    \"Акбаур\"       -> \"아크바우르\"\n",
"    \"Фёдор\"        -> \"표도르\"\n",
"    \"Салтыков\"     -> \"살티코프\"\n",
"    \"Адыгея\"       -> \"아디게야\"\n",
"    \"Садко\"        -> \"삿코\"\n",
"    \"Ахматова\"     -> \"아흐마토바\"\n",
"    \"Рубцовск\"     -> \"룹촙스크\"\n",
"    \"Якубович\"     -> \"야쿠보비치\"\n",
"    \"Нижний Тагил\" -> \"니즈니 타길\"\n",
"    \"Лужков\"       -> \"루시코프\"\n",
"    \"Авксесия\"     -> \"압크세시야\"\n",
"    \"Острогожск\"   -> \"오스트로고시스크\"\n",
"    \"Гатчина\"      -> \"가치나\"\n",
"    \"Ольга\"        -> \"올가\"\n",
"    \"борщ\"         -> \"보르시\"\n",
"    \"Назрань\"      -> \"나즈란\"\n",
"    \"Гиппиус\"      -> \"기피우스\"\n",
"    \"Курбский\"     -> \"쿠릅스키\"\n",
"    \"Борис\"        -> \"보리스\"\n",
"    \"Болотов\"      -> \"볼로토프\"\n",
"    \"Гамма\"        -> \"감마\"\n",
"    \"Кузнецов\"     -> \"쿠즈네초프\"\n"]

theorem lines15_ok : Part true lang macros vars (str "transcribe") lines15 (str "test") := by
  apply piece_of
  · dsimp only [lines15]; repeat (first | exact .nil | apply Spells.cons)
  · decide +kernel

def lines16 : List String := [
"    \"Михаийл\"      -> \"미하일\"\n",
"    \"Ока\"          -> \"오카\"\n",
"    \"Достоевский\"  -> \"도스토옙스키\"\n",
"    \"Рязань\"       -> \"랴잔\"\n",
"    \"Льбовна\"      -> \"리보브나\"\n",
"    \"Хомяков\"      -> \"호먀코프\"\n",
"    \"Ушаков\"       -> \"우샤코프\"\n",
"    \"Николаевич\"   -> \"니콜라예비치\"\n",
"    \"Шелгунов\"     -> \"셸구노프\"\n",
"    \"Рыбинск\"      -> \"리빈스크\"\n",
"    \"Хватков\"      -> \"흐밧코프\"\n",
"    \"Евгений\"      -> \"예브게니\"\n",
"    \"Жданов\"       -> \"즈다노프\"\n",
"    \"Абакан\"       -> \"아바칸\"\n",
"    \"Соловьёв\"     -> \"솔로비요프\"\n",
"    \"Иосиф\"        -> \"이오시프\"\n",
"    \"Пётр\"         -> \"표트르\"\n",
"    \"Земля\"        -> \"제믈랴\"\n",
"    \"Бурят\"        -> \"부랴트\"\n",
"    \"Ясинский\"     -> \"야신스키\"\n",
"    \"Богдан\"       -> \"보그단\"\n",
"    \"Артём\"        -> \"아르툠\"\n",
"    \"Дзержинский\"  -> \"제르진스키\"\n",
"    \"Щербаков\"     -> \"셰르바코프\"\n",
"    \"Николай\"      -> \"니콜라이\"\n",
"    \"Василий\"      -> \"바실리\"\n",
"    \"Тютчев\"       -> \"튜체프\"\n",
"    \"Акмеизм\"      -> \"아크메이즘\"\n",
"    \"Акколь\"       -> \"아콜\"\n",
"    \"Находка\"      -> \"나홋카\"\n",
"    \"Бенедиктов\"   -> \"베네딕토프\"\n",
"    \"Алекса́ндр\"    -> \"알렉산드르\"\n",
"\n",
"    # Politicians\n",
"    \"Влади́мир Пу́тин\" -> \"블라디미르 푸틴\"\n"]

theorem lines16_ok : Part true lang macros vars (str "test") lines16 (str "test") := by
  apply piece_of
  · dsimp only [lines16]; repeat (first | exact .nil | apply Spells.cons)
  · decide +kernel

/-- The lines of the file. -/
def lines : List String := head ++ (lines1 ++ (lines2 ++ (lines3 ++ (lines4 ++ (lines5 ++ (lines6 ++ (lines7 ++ (lines8 ++ (lines9 ++ (lines10 ++ (lines11 ++ (lines12 ++ (lines13 ++ (lines14 ++ (lines15 ++ (lines16))))))))))))))))

/-- The file is a spec with checked rules. -/
theorem sound : Sound (text lines) lang := sound_of head_ok (lines1_ok.append (lines2_ok.append (lines3_ok.append (lines4_ok.append (lines5_ok.append (lines6_ok.append (lines7_ok.append (lines8_ok.append (lines9_ok.append (lines10_ok.append (lines11_ok.append (lines12_ok.append (lines13_ok.append (lines14_ok.append (lines15_ok.append (lines16_ok)))))))))))))))) (by decide +kernel)

end Verif.Specs.Rus
