import Verif.Specs.UkrHead

/-! specs/ukr.hsl, part 1, generated by tools/gen_specs.py. -/

set_option Elab.async false

namespace Verif.Specs.Ukr

open Hsl

def lines1 : List String := [
"rewrite:\n",
"    \"-\"                    -> \"{}\"\n",
"    \"{ж|з|ц|ч|ш|щ}ь{@}\"    -> \"\"\n",
"    \"ьа\"                   -> \"я\"\n",
"    \"йа\"                   -> \"я\"\n",
"    \"ье\"                   -> \"є\"\n",
"    \"йе\"                   -> \"є\"\n",
"    \"ьи\"                   -> \"ї\"\n",
"    \"йи\"                   -> \"ї\"\n",
"    \"ьі\"                   -> \"ї\"\n",
"    \"йі\"                   -> \"ї\"\n"]

theorem lines1_ok : Part true lang macros vars (str "vars") lines1 (str "rewrite") := by
  apply piece_of
  · dsimp only [lines1]; repeat (first | exact .nil | apply Spells.cons)
  · decide +kernel

def lines2 : List String := [
"    \"ьо\"                   -> \"O\"\n",
"    \"йо\"                   -> \"O\"\n",
"    \"ьу\"                   -> \"ю\"\n",
"    \"йу\"                   -> \"ю\"\n",
"    \"^ль\"                  -> \"лі\"\n",
"    \"^мь\"                  -> \"мі\"\n",
"    \"^нь\"                  -> \"ні\"\n",
"    \"{л|м|н}ь{є|ю|я|O}\"    -> \"і\"\n",
"    \"{л|м|н}ь{ї|й}\"        -> \"\"\n",
"    \"{л|м|н}ь$\"            -> \"\"\n"]

theorem lines2_ok : Part true lang macros vars (str "rewrite") lines2 (str "rewrite") := by
  apply piece_of
  · dsimp only [lines2]; repeat (first | exact .nil | apply Spells.cons)
  · decide +kernel

def lines3 : List String := [
"    \"{л|м|н}ь{<cs>}\"       -> \"\"\n",
"    \"{<cs>}'{є|ї|й|ю|я|O}\" -> \"і\"\n",
"    \"бб\"                   -> \"б\"\n",
"    \"гг\"                   -> \"г\"\n",
"    \"ґґ\"                   -> \"ґ\"\n",
"    \"дд\"                   -> \"д\"\n",
"    \"дс\"                   -> \"дз\"\n",
"    \"жж\"                   -> \"ж\"\n",
"    \"зз\"                   -> \"з\"\n",
"    \"кк\"                   -> \"к\"\n"]

theorem lines3_ok : Part true lang macros vars (str "rewrite") lines3 (str "rewrite") := by
  apply piece_of
  · dsimp only [lines3]; repeat (first | exact .nil | apply Spells.cons)
  · decide +kernel

def lines4 : List String := [
"    \"лл\"                   -> \"л\"\n",
"    \"{@}мм{@}\"             -> \"м,м\"\n",
"    \"мм\"                   -> \"м\"\n",
"    \"{@}нн{@}\"             -> \"н,н\"\n",
"    \"нн\"                   -> \"н\"\n",
"    \"пп\"                   -> \"п\"\n",
"    \"рр\"                   -> \"р\"\n",
"    \"сс\"                   -> \"с\"\n",
"    \"тт\"                   -> \"т\"\n",
"    \"тц\"                   -> \"ц\"\n"]

theorem lines4_ok : Part true lang macros vars (str "rewrite") lines4 (str "rewrite") := by
  apply piece_of
  · dsimp only [lines4]; repeat (first | exact .nil | apply Spells.cons)
  · decide +kernel

def lines5 : List String := [
"    \"тч\"                   -> \"ч\"\n",
"    \"фф\"                   -> \"ф\"\n",
"    \"хх\"                   -> \"х\"\n",
"    \"цц\"                   -> \"ц\"\n",
"    \"чч\"                   -> \"ч\"\n",
"    \"шш\"                   -> \"ш\"\n",
"    \"щщ\"                   -> \"щ\"\n",
"    \"{з|с|ц}ь\"             -> \"\"\n",
"    \"{и|і|ї}й\"             -> \"\"\n",
"    \"{@}ь\"                 -> \"\"\n"]

theorem lines5_ok : Part true lang macros vars (str "rewrite") lines5 (str "rewrite") := by
  apply piece_of
  · dsimp only [lines5]; repeat (first | exact .nil | apply Spells.cons)
  · decide +kernel

def lines6 : List String := [
"    \"тс\"                   -> \"ц\"\n",
"    \"дз\"                   -> \"з\"\n",
"    \"тз\"                   -> \"з\"\n",
"    \"нкт\"                  -> \"Nт\"\n",
"    \"^в{<cs>}\"             -> \"у\"\n",
"    \"{@}в{<cs>}\"           -> \"у\"\n",
"    \"{@}в$\"                -> \"у\"\n",
"    \"{@}к{<vl>}\"           -> \"к,\"\n",
"    \"{@}п{<vl>}\"           -> \"п,\"\n",
"    \"{@}т{<vl>}\"           -> \"т,\"\n"]

theorem lines6_ok : Part true lang macros vars (str "rewrite") lines6 (str "rewrite") := by
  apply piece_of
  · dsimp only [lines6]; repeat (first | exact .nil | apply Spells.cons)
  · decide +kernel

def lines7 : List String := [
"    \"{ж|з|ц|ч}O\"           -> \"о\"\n",
"    \"{ж|з|ц|ч}ю\"           -> \"у\"\n",
"    \"{ж|з|ц|ч}я\"           -> \"а\"\n",
"    \"щ\"                    -> \"ш\"\n",
"    \"{<cs>}є\"              -> \"е\"\n",
"    \"ша\"                   -> \"ся\"\n",
"    \"ше\"                   -> \"сє\"\n",
"    \"шо\"                   -> \"сO\"\n",
"    \"шу\"                   -> \"сю\"\n",
"    \"ш{и|і|ї|й|ь}\"         -> \"с\"\n"]

theorem lines7_ok : Part true lang macros vars (str "rewrite") lines7 (str "rewrite") := by
  apply piece_of
  · dsimp only [lines7]; repeat (first | exact .nil | apply Spells.cons)
  · decide +kernel

def lines8 : List String := [
"    \"ш$\"                   -> \"сі\"\n",
"    \"ш\"                    -> \"сю\"\n",
"    \"дж{@}\"                -> \"з\"\n",
"    \"дж\"                   -> \"зі\"\n",
"    \"ж{@}\"                 -> \"з\"\n",
"    \"ж\"                    -> \"зу\"\n",
"    \"ч{@}\"                 -> \"ц\"\n",
"    \"ч\"                    -> \"чі\"\n",
"    \"^л\"                   -> \"л;\"\n",
"    \"^м\"                   -> \"м;\"\n"]

theorem lines8_ok : Part true lang macros vars (str "rewrite") lines8 (str "rewrite") := by
  apply piece_of
  · dsimp only [lines8]; repeat (first | exact .nil | apply Spells.cons)
  · decide +kernel

def lines9 : List String := [
"    \"^н\"                   -> \"н;\"\n",
"    \"л$\"                   -> \"л,\"\n",
"    \"м$\"                   -> \"м,\"\n",
"    \"н$\"                   -> \"н,\"\n",
"    \"л{@|м,|н,|N}\"         -> \"л;\"\n",
"    \"м{@}\"                 -> \"м;\"\n",
"    \"н{@}\"                 -> \"н;\"\n",
"    \"л\"                    -> \"л,\"\n",
"    \"м\"                    -> \"м,\"\n",
"    \"н\"                    -> \"н,\"\n"]

theorem lines9_ok : Part true lang macros vars (str "rewrite") lines9 (str "rewrite") := by
  apply piece_of
  · dsimp only [lines9]; repeat (first | exact .nil | apply Spells.cons)
  · decide +kernel

def lines10 : List String := [
"    \",,\"                   -> \",\"\n",
"    \",;\"                   -> \"\"\n",
"    \",л,\"                  -> \"л,\"\n",
"    \",м,\"                  -> \"м,\"\n",
"    \",н,\"                  -> \"н,\"\n",
"    \"л{м;|н;}\"             -> \"л,\"\n",
"    \";\"                    -> \"\"\n",
"\n"]

theorem lines10_ok : Part true lang macros vars (str "rewrite") lines10 (str "rewrite") := by
  apply piece_of
  · dsimp only [lines10]; repeat (first | exact .nil | apply Spells.cons)
  · decide +kernel

def lines11 : List String := [
"transcribe:\n",
"    \"б\"  -> \"ㅂ\"\n",
"    \"в\"  -> \"ㅂ\"\n",
"    \"г\"  -> \"ㅎ\"\n",
"    \"ґ\"  -> \"ㄱ\"\n",
"    \"д\"  -> \"ㄷ\"\n",
"    \"ж\"  -> \"ㅈ\"\n",
"    \"з\"  -> \"ㅈ\"\n",
"    \"ж\"  -> \"ㅈ\"\n",
"    \"к,\" -> \"-ㄱ\"\n",
"    \"к\"  -> \"ㅋ\"\n"]

theorem lines11_ok : Part true lang macros vars (str "rewrite") lines11 (str "transcribe") := by
  apply piece_of
  · dsimp only [lines11]; repeat (first | exact .nil | apply Spells.cons)
  · decide +kernel

def lines12 : List String := [
"    \"^л\" -> \"ㄹ\"\n",
"    \"л,\" -> \"-ㄹ\"\n",
"    \"л\"  -> \"-ㄹㄹ\"\n",
"    \"м,\" -> \"-ㅁ\"\n",
"    \"м\"  -> \"ㅁ\"\n",
"    \"н,\" -> \"-ㄴ\"\n",
"    \"н\"  -> \"ㄴ\"\n",
"    \"N\"  -> \"-ㅇ\"\n",
"    \"п,\" -> \"-ㅂ\"\n",
"    \"п\"  -> \"ㅍ\"\n"]

theorem lines12_ok : Part true lang macros vars (str "transcribe") lines12 (str "transcribe") := by
  apply piece_of
  · dsimp only [lines12]; repeat (first | exact .nil | apply Spells.cons)
  · decide +kernel

def lines13 : List String := [
"    \"р\"  -> \"ㄹ\"\n",
"    \"с\"  -> \"ㅅ\"\n",
"    \"т,\" -> \"-ㅅ\"\n",
"    \"т\"  -> \"ㅌ\"\n",
"    \"ф\"  -> \"ㅍ\"\n",
"    \"х\"  -> \"ㅎ\"\n",
"    \"ц\"  -> \"ㅊ\"\n",
"    \"ч\"  -> \"ㅊ\"\n",
"    \"а\"  -> \"ㅏ\"\n",
"    \"е\"  -> \"ㅔ\"\n"]

theorem lines13_ok : Part true lang macros vars (str "transcribe") lines13 (str "transcribe") := by
  apply piece_of
  · dsimp only [lines13]; repeat (first | exact .nil | apply Spells.cons)
  · decide +kernel

def lines14 : List String := [
"    \"є\"  -> \"ㅖ\"\n",
"    \"O\"  -> \"ㅛ\"\n",
"    \"и\"  -> \"ㅣ\"\n",
"    \"і\"  -> \"ㅣ\"\n",
"    \"ї\"  -> \"ㅣ\"\n",
"    \"й\"  -> \"ㅣ\"\n",
"    \"о\"  -> \"ㅗ\"\n",
"    \"у\"  -> \"ㅜ\"\n",
"    \"ь\"  -> \"ㅣ\"\n",
"    \"ю\"  -> \"ㅠ\"\n"]

theorem lines14_ok : Part true lang macros vars (str "transcribe") lines14 (str "transcribe") := by
  apply piece_of
  · dsimp only [lines14]; repeat (first | exact .nil | apply Spells.cons)
  · decide +kernel

def lines15 : List String := [
"    \"я\"  -> \"ㅑ\"\n",
"\n"]

theorem lines15_ok : Part true lang macros vars (str "transcribe") lines15 (str "transcribe") := by
  apply piece_of
  · dsimp only [lines15]; repeat (first | exact .nil | apply Spells.cons)
  · decide +kernel

def lines16 : List String := [
"test:\n",
"    \"кобзар\"                 -> \"코브자르\"\n",
"    \"Луцьк\"                  -> \"루츠크\"\n",
"    \"Роман Шухевич\"          -> \"로만 슈헤비치\"\n",
"    \"Григорій Сковорода\"     -> \"흐리호리 스코보로다\"\n",
"    \"Володимир Кличко\"       -> \"볼로디미르 클리치코\"\n",
"    \"Альона Бондаренко\"      -> \"알료나 본다렌코\"\n",
"    \"Горлівка\"               -> \"호를리우카\"\n",
"    \"Єнакієве\"               -> \"예나키예베\"\n",
"    \"Івано-Франківськ\"       -> \"이바노프란키우스크\"\n",
"    \"Леонід Кравчук\"         -> \"레오니드 크라우추크\"\n",
"    \"Данило Галицький\"       -> \"다닐로 할리츠키\"\n",
"    \"Запоріжжя\"              -> \"자포리자\"\n",
"    \"Сєверодонецьк\"          -> \"세베로도네츠크\"\n",
"    \"Львів\"                  -> \"리비우\"\n",
"    \"Андрей Шептицький\"      -> \"안드레이 솁티츠키\"\n",
"    \"Києво-Печерська лавра\"  -> \"키예보페체르스카 라우라\"\n",
"    \"Іван Франко\"            -> \"이반 프란코\"\n",
"    \"Віталій Кличко\"         -> \"비탈리 클리치코\"\n",
"    \"Кіровоград\"             -> \"키로보흐라드\"\n",
"    \"Оксана Баюл\"            -> \"옥사나 바율\"\n",
"    \"Симон Петлюра\"          -> \"시몬 페틀류라\"\n",
"    \"Максиміліан Левчин\"     -> \"막시밀리안 레우친\"\n",
"    \"Чернівці\"               -> \"체르니우치\"\n",
"    \"Вінниця\"                -> \"빈니차\"\n",
"    \"Одеса\"                  -> \"오데사\"\n",
"    \"Миколаїв\"               -> \"미콜라이우\"\n",
"    \"Херсон\"                 -> \"헤르손\"\n",
"    \"Ярослав Мудрий\"         -> \"야로슬라우 무드리\"\n",
"    \"Вадим Перельман\"        -> \"바딤 페렐만\"\n",
"    \"Сергій Ребров\"          -> \"세르히 레브로우\"\n",
"    \"Віктор Янукович\"        -> \"빅토르 야누코비치\"\n",
"    \"Леся Українка\"          -> \"레샤 우크라인카\"\n",
"    \"Михайло Грушевський\"    -> \"미하일로 흐루셰우스키\"\n",
"    \"Дніпродзержинськ\"       -> \"드니프로제르진스크\"\n",
"    \"Іван Мазепа\"            -> \"이반 마제파\"\n",
"    \"Рівне\"                  -> \"리우네\"\n",
"    \"Іван Кожедуб\"           -> \"이반 코제두브\"\n",
"    \"Тарас Шевченко\"         -> \"타라스 셰우첸코\"\n",
"    \"Міла Куніс\"             -> \"밀라 쿠니스\"\n",
"    \"Віктор Ющенко\"          -> \"빅토르 유셴코\"\n",
"    \"Володимир Мономах\"      -> \"볼로디미르 모노마흐\"\n",
"    \"Андрій Медведєв\"        -> \"안드리 메드베데우\"\n",
"    \"Маріуполь\"              -> \"마리우폴\"\n",
"    \"Василь Стус\"            -> \"바실 스투스\"\n",
"    \"Йосип Сліпий\"           -> \"요시프 슬리피\"\n",
"    \"Суми\"                   -> \"수미\"\n",
"    \"Слов'янськ\"             -> \"슬로비얀스크\"\n",
"    \"Олександр Алієв\"        -> \"올렉산드르 알리예우\"\n",
"    \"Степан Бандера\"         -> \"스테판 반데라\"\n",
"    \"Кременчук\"              -> \"크레멘추크\"\n",
"    \"Анатолій Тимощук\"       -> \"아나톨리 티모슈크\"\n",
"    \"гетьман\"                -> \"헤티만\"\n",
"    \"Сергій Тігіпко\"         -> \"세르히 티힙코\"\n",
"    \"Роман Мстиславич\"       -> \"로만 므스티슬라비치\"\n",
"    \"бандура\"                -> \"반두라\"\n",
"    \"Харків\"                 -> \"하르키우\"\n",
"    \"Асканія-Нова\"           -> \"아스카니야노바\"\n",
"    \"Біла Церква\"            -> \"빌라 체르크바\"\n",
"    \"Андрій Шевченко\"        -> \"안드리 셰우첸코\"\n",
"    \"Дніпропетровськ\"        -> \"드니프로페트로우스크\"\n",
"    \"Голодомор\"              -> \"홀로도모르\"\n"]

theorem lines16_ok : Part true lang macros vars (str "transcribe") lines16 (str "test") := by
  apply piece_of
  · dsimp only [lines16]; repeat (first | exact .nil | apply Spells.cons)
  · decide +kernel

end Verif.Specs.Ukr
