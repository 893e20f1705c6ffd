import Verif.Specs.BelHead

/-! specs/bel.hsl, part 2, generated by tools/gen_specs.py. -/

set_option Elab.async false

namespace Verif.Specs.Bel

open Hsl

def lines17 : List String := [
"test:\n",
"    \"Янка Купала\"               -> \"얀카 쿠팔라\"\n",
"    \"Полацк\"                    -> \"폴라츠크\"\n",
"    \"Леў Сапега\"                -> \"레우 사페하\"\n",
"    \"Ян Серада\"                 -> \"얀 세라다\"\n",
"    \"Вінцэнт Дунін-Марцінкевіч\" -> \"빈첸트 두닌마르친케비치\"\n",
"    \"Ян Чачот\"                  -> \"얀 차초트\"\n",
"    \"Андрэй Арамнаў\"            -> \"안드레이 아람나우\"\n",
"    \"Белавежская пушча\"         -> \"벨라베슈스카야 푸샤\"\n",
"    \"Фёдар Сумкін\"              -> \"표다르 숨킨\"\n",
"    \"Аляксандр Глеб\"            -> \"알략산드르 흘레프\"\n",
"    \"Сынкавічы\"                 -> \"신카비치\"\n",
"    \"Ефрасіння Полацкая\"        -> \"예프라신냐 폴라츠카야\"\n",
"    \"Аляксей Грышын\"            -> \"알략세이 흐리신\"\n",
"    \"Сымон Будны\"               -> \"시몬 부드니\"\n",
"    \"Яўген Глебаў\"              -> \"야우헨 흘레바우\"\n",
"    \"Якуб Колас\"                -> \"야쿠프 콜라스\"\n",
"    \"Святлана Багінская\"        -> \"스뱌틀라나 바힌스카야\"\n",
"    \"Мір\"                       -> \"미르\"\n",
"    \"Віцебск\"                   -> \"비쳅스크\"\n",
"    \"Іпаці Пацей\"               -> \"이파치 파체이\"\n",
"    \"Алаіза Пашкевіч\"           -> \"알라이자 파슈케비치\"\n",
"    \"Гродна\"                    -> \"흐로드나\"\n",
"    \"Мікалай Улашчык\"           -> \"미칼라이 울라시크\"\n",
"    \"Францішак Аляхновіч\"       -> \"프란치샤크 알랴흐노비치\"\n",
"    \"Мінск\"                     -> \"민스크\"\n",
"    \"Алег Ахрэм\"                -> \"알레크 아흐렘\"\n",
"    \"Нясвіж\"                    -> \"냐스비시\"\n",
"    \"Аляксандр Патупа\"          -> \"알략산드르 파투파\"\n",
"    \"Радзівіл\"                  -> \"라지빌\"\n",
"    \"Вацлаў Ластоўскі\"          -> \"바츨라우 라스토우스키\"\n",
"    \"Камянец\"                   -> \"카먀네츠\"\n",
"    \"Бабруйск\"                  -> \"바브루이스크\"\n",
"    \"Магілёў\"                   -> \"마힐료우\"\n",
"    \"Мялецій Сматрыцкі\"         -> \"먈레치 스마트리츠키\"\n",
"    \"Кастусь Каліноўскі\"        -> \"카스투스 칼리노우스키\"\n",
"    \"Баранавічы\"                -> \"바라나비치\"\n",
"    \"Міхаіл Савіцкі\"            -> \"미하일 사비츠키\"\n",
"    \"Францыск Скарына\"          -> \"프란치스크 스카리나\"\n",
"    \"Аляксей Абалмасаў\"         -> \"알략세이 아발마사우\"\n",
"    \"Раман Скірмунт\"            -> \"라만 스키르문트\"\n",
"    \"Юлія Несцярэнка\"           -> \"율리야 네스차렌카\"\n",
"    \"Гомель\"                    -> \"호멜\"\n",
"    \"Наталля Пяткевіч\"          -> \"나탈랴 퍄트케비치\"\n",
"    \"Максім Багдановіч\"         -> \"막심 바흐다노비치\"\n",
"    \"Ігар Лучанок\"              -> \"이하르 루차노크\"\n",
"    \"Святлана Алексіевіч\"       -> \"스뱌틀라나 알렉시예비치\"\n",
"    \"Віктар Тураў\"              -> \"빅타르 투라우\"\n",
"    \"Ян Станкевіч\"              -> \"얀 스탄케비치\"\n",
"    \"Максім Рамашчанка\"         -> \"막심 라마샨카\"\n",
"    \"Беларусь\"                  -> \"벨라루스\"\n",
"    \"Аляксандр Лукашэнка\"       -> \"알략산드르 루카셴카\"\n",
"    \"Брэст\"                     -> \"브레스트\"\n",
"    \"Вікторыя Азарэнка\"         -> \"빅토리야 아자렌카\"\n",
"    \"Вадзім Махнеў\"             -> \"바짐 마흐네우\"\n",
"    \"Мураванка\"                 -> \"무라반카\"\n",
"    \"Браніслаў Тарашкевіч\"      -> \"브라니슬라우 타라슈케비치\"\n"]

theorem lines17_ok : Part true lang macros vars (str "transcribe") lines17 (str "test") := by
  apply piece_of
  · dsimp only [lines17]; repeat (first | exact .nil | apply Spells.cons)
  · decide +kernel

def lines18 : List String := [
"    \"Кацярына Карстэн\"          -> \"카차리나 카르스텐\"\n",
"    \"Фёдар Фёдараў\"             -> \"표다르 표다라우\"\n",
"    \"Францішак Багушэвіч\"       -> \"프란치샤크 바후셰비치\"\n",
"\n"]

theorem lines18_ok : Part true lang macros vars (str "test") lines18 (str "test") := by
  apply piece_of
  · dsimp only [lines18]; repeat (first | exact .nil | apply Spells.cons)
  · decide +kernel

end Verif.Specs.Bel
