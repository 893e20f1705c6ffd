import Verif.Specs.MkdHead

/-! specs/mkd.hsl, part 2, generated by tools/gen_specs.py. -/

set_option Elab.async false

namespace Verif.Specs.Mkd

open Hsl

def lines17 : List String := [
"test:\n",
"    \"Кичево\"                -> \"키체보\"\n",
"    \"Коле Чашуле\"           -> \"콜레 차슐레\"\n",
"    \"Кирил Лазаров\"         -> \"키릴 라자로프\"\n",
"    \"Срѓан Керим\"           -> \"스르잔 케림\"\n",
"    \"Климент Охридски\"      -> \"클리멘트 오흐리츠키\"\n",
"    \"Кочани\"                -> \"코차니\"\n",
"    \"Жарко Кујунџиски\"      -> \"자르코 쿠윤지스키\"\n",
"    \"Бранко Црвенковски\"    -> \"브란코 츠르벤코프스키\"\n",
"    \"Велес\"                 -> \"벨레스\"\n",
"    \"Борис Трајковски\"      -> \"보리스 트라이코프스키\"\n",
"    \"Константин Миладинов\"  -> \"콘스탄틴 밀라디노프\"\n",
"    \"Македонија\"            -> \"마케도니야\"\n",
"    \"Димитар Миладинов\"     -> \"디미타르 밀라디노프\"\n",
"    \"Александар Џамбазов\"   -> \"알렉산다르 잠바조프\"\n",
"    \"Каролина Гочева\"       -> \"카롤리나 고체바\"\n",
"    \"Шар\"                   -> \"샤르\"\n",
"    \"Лазар Колишевски\"      -> \"라자르 콜리셰프스키\"\n",
"    \"Владо Бучковски\"       -> \"블라도 부치코프스키\"\n",
"    \"Тоше Проески\"          -> \"토셰 프로에스키\"\n",
"    \"Скопје\"                -> \"스코피에\"\n",
"    \"Саша Огненовски\"       -> \"사샤 오그네노프스키\"\n",
"    \"Ѓорѓи Пулевски\"        -> \"교르기 풀레프스키\"\n",
"    \"Славко Јаневски\"       -> \"슬라프코 야네프스키\"\n",
"    \"Куманово\"              -> \"쿠마노보\"\n",
"    \"Борјан Јовановски\"     -> \"보리안 요바노프스키\"\n",
"    \"Нов Дојран\"            -> \"노프 도이란\"\n",
"    \"Димитрије Бужаровски\"  -> \"디미트리예 부자로프스키\"\n",
"    \"Врбица Стефанов\"       -> \"브르비차 스테파노프\"\n",
"    \"Горан Стефановски\"     -> \"고란 스테파노프스키\"\n",
"    \"Слатино\"               -> \"슬라티노\"\n",
"    \"Никола Груевски\"       -> \"니콜라 그루에프스키\"\n",
"    \"Блаже Конески\"         -> \"블라제 코네스키\"\n",
"    \"Стевица Ристиќ\"        -> \"스테비차 리스티치\"\n",
"    \"Кочо Рацин\"            -> \"코초 라친\"\n",
"    \"Есма Реџепова\"         -> \"에스마 레제포바\"\n",
"    \"Прилеп\"                -> \"프릴레프\"\n",
"    \"Киро Глигоров\"         -> \"키로 글리고로프\"\n",
"    \"Петар Наумоски\"        -> \"페타르 나우모스키\"\n",
"    \"Никола Кљусев\"         -> \"니콜라 클류세프\"\n",
"    \"Баже Илијоски\"         -> \"바제 일리요스키\"\n",
"    \"Ѓорге Иванов\"          -> \"교르게 이바노프\"\n",
"    \"Струмица\"              -> \"스트루미차\"\n",
"    \"Крсте Мисирков\"        -> \"크르스테 미시르코프\"\n",
"    \"Гостивар\"              -> \"고스티바르\"\n",
"    \"Кратово\"               -> \"크라토보\"\n",
"    \"Струга\"                -> \"스트루가\"\n",
"    \"Коле Неделковски\"      -> \"콜레 네델코프스키\"\n",
"    \"Маркови Кули\"          -> \"마르코비 쿨리\"\n",
"    \"Металург\"              -> \"메탈루르크\"\n",
"    \"Хари Костов\"           -> \"하리 코스토프\"\n",
"    \"Јулија Портјанко\"      -> \"율리야 포르티안코\"\n",
"    \"Партенија Зографски\"   -> \"파르테니야 조그라프스키\"\n",
"    \"Кораб\"                 -> \"코라프\"\n",
"    \"Венко Марковски\"       -> \"벤코 마르코프스키\"\n",
"    \"Милан Ивановиќ\"        -> \"밀란 이바노비치\"\n",
"    \"Горан Пандев\"          -> \"고란 판데프\"\n",
"    \"Тодор Скаловски\"       -> \"토도르 스칼로프스키\"\n",
"    \"Живко Поповски-Цветин\" -> \"지프코 포포프스키츠베틴\"\n",
"    \"Љубомир Цуцуловски\"    -> \"류보미르 추출로프스키\"\n"]

theorem lines17_ok : Part true lang macros vars (str "transcribe") lines17 (str "test") := by
  apply piece_of
  · dsimp only [lines17]; repeat (first | exact .nil | apply Spells.cons)
  · decide +kernel

def lines18 : List String := [
"    \"Охрид\"                 -> \"오흐리트\"\n",
"    \"Куклица\"               -> \"쿠클리차\"\n",
"    \"Кавадарци\"             -> \"카바다르치\"\n",
"    \"Душан Савиќ\"           -> \"두샨 사비치\"\n",
"    \"Живко Чинго\"           -> \"지프코 친고\"\n",
"    \"Ѓорѓи Христов\"         -> \"교르기 흐리스토프\"\n",
"    \"Радовиш\"               -> \"라도비시\"\n",
"    \"Битола\"                -> \"비톨라\"\n",
"    \"Кокино\"                -> \"코키노\"\n",
"    \"Катарина Ивановска\"    -> \"카타리나 이바노프스카\"\n",
"    \"Димитар Димитров\"      -> \"디미타르 디미트로프\"\n",
"    \"Штип\"                  -> \"슈티프\"\n",
"    \"Тетово\"                -> \"테토보\"\n",
"    \"Гевгелија\"             -> \"게브겔리야\"\n"]

theorem lines18_ok : Part true lang macros vars (str "test") lines18 (str "test") := by
  apply piece_of
  · dsimp only [lines18]; repeat (first | exact .nil | apply Spells.cons)
  · decide +kernel

end Verif.Specs.Mkd
