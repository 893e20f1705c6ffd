import Verif.Specs.UkrHead

/-! specs/ukr.hsl, part 2, generated by tools/gen_specs.py. -/

set_option Elab.async false

namespace Verif.Specs.Ukr

open Hsl

def lines17 : List String := [
"    \"Сергій Бубка\"           -> \"세르히 부브카\"\n",
"    \"Сергій Корольов\"        -> \"세르히 코롤료우\"\n",
"    \"Артем Мілевський\"       -> \"아르템 밀레우스키\"\n",
"    \"Євпаторія\"              -> \"예우파토리야\"\n",
"    \"Віктор Пінчук\"          -> \"빅토르 핀추크\"\n",
"    \"Леонід Кучма\"           -> \"레오니드 쿠치마\"\n",
"    \"Тернопіль\"              -> \"테르노필\"\n",
"    \"Олена Теліга\"           -> \"올레나 텔리하\"\n",
"    \"Юлія Тимошенко\"         -> \"율리야 티모셴코\"\n",
"    \"Черкаси\"                -> \"체르카시\"\n",
"    \"Ананьїв\"                -> \"아나니우\"\n",
"    \"Левко Лук'яненко\"       -> \"레우코 루키야넨코\"\n",
"    \"Чернігів\"               -> \"체르니히우\"\n",
"    \"Кривий ріг\"             -> \"크리비 리흐\"\n",
"    \"Донецьк\"                -> \"도네츠크\"\n",
"    \"Андрій Воронін\"         -> \"안드리 보로닌\"\n",
"    \"Ужгород\"                -> \"우주호로드\"\n",
"    \"Валерій Лобановський\"   -> \"발레리 로바노우스키\"\n",
"    \"Микола Лисенко\"         -> \"미콜라 리센코\"\n",
"    \"козак\"                  -> \"코자크\"\n",
"    \"Богдан Хмельницький\"    -> \"보흐단 흐멜니츠키\"\n",
"    \"Полтава\"                -> \"폴타바\"\n",
"    \"Катерина Білокур\"       -> \"카테리나 빌로쿠르\"\n",
"    \"Кам'янець-Подільський\"  -> \"카미야네츠포딜스키\"\n",
"    \"писанка\"                -> \"피산카\"\n",
"    \"Луганськ\"               -> \"루한스크\"\n",
"    \"Мстислав Володимирович\" -> \"므스티슬라우 볼로디미로비치\"\n",
"    \"Ольга Куриленко\"        -> \"올하 쿠릴렌코\"\n",
"    \"Борис Тарасюк\"          -> \"보리스 타라슈크\"\n",
"    \"Олександр Довженко\"     -> \"올렉산드르 도우젠코\"\n",
"    \"Макіївка\"               -> \"마키이우카\"\n",
"    \"Київ\"                   -> \"키이우\"\n",
"    \"Житомир\"                -> \"지토미르\"\n",
"    \"Яна Клочкова\"           -> \"야나 클로치코바\"\n",
"    \"Пилип Орлик\"            -> \"필리프 오를리크\"\n",
"    \"Володимир Вернадський\"  -> \"볼로디미르 베르나즈키\"\n",
"    \"Катерина Бондаренко\"    -> \"카테리나 본다렌코\"\n",
"    \"Олег Блохін\"            -> \"올레흐 블로힌\"\n",
"    \"гопак\"                  -> \"호파크\"\n",
"    \"Климент Редько\"         -> \"클리멘트 레디코\"\n",
"    \"Вячеслав Чорновіл\"      -> \"뱌체슬라우 초르노빌\"\n",
"\n",
"    # Politicians\n",
"    \"Володимир Зеленський\"   -> \"볼로디미르 젤렌스키\"\n"]

theorem lines17_ok : Part true lang macros vars (str "test") lines17 (str "test") := by
  apply piece_of
  · dsimp only [lines17]; repeat (first | exact .nil | apply Spells.cons)
  · decide +kernel

end Verif.Specs.Ukr
