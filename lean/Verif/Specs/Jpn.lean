import Verif.Proofs.Bundle

/-! specs/jpn.hsl, generated by tools/gen_specs.py. -/

set_option Elab.async false

namespace Verif.Specs.Jpn

open Hsl

/-- The language of the spec. -/
def lang : Language :=
  ⟨str "jpn", (str "ja", str "jpn"), str "Japanese", str "일본어", str "Hrkt", [str "furigana"]⟩

def macros : List (Bytes × Bytes) := []

def vars : List (Bytes × List Bytes) := []

def keys : List (Rune × List Rune) := []

def kept : List Rune := []

def head : List String := [
"lang:\n",
"    id       = \"jpn\"\n",
"    codes    = \"ja\", \"jpn\"\n",
"    english  = \"Japanese\"\n",
"    korean   = \"일본어\"\n",
"    script   = \"Hrkt\"\n",
"    translit = \"furigana\"\n",
"\n",
"config:\n",
"    author = \"Heungsub Lee <heungsub@subl.ee>\"\n",
"    stage  = \"draft\"\n",
"\n"]

theorem head_ok : ∃ xs, Reads [] (runes (text head)) xs (str "config") ∧ headOk lang macros vars keys kept xs = true := by
  apply piece_of
  · dsimp only [head]; repeat (first | exact .nil | apply Spells.cons)
  · decide +kernel

def lines1 : List String := [
"rewrite:\n",
"    \"ー\" -> \"\"\n",
"    \"・\" -> \"{}\"\n",
"\n",
"    \"ァ\" -> \"'a\"\n",
"    \"ィ\" -> \"'i\"\n",
"    \"ゥ\" -> \"'u\"\n",
"    \"ェ\" -> \"'e\"\n",
"    \"ォ\" -> \"'o\"\n",
"\n",
"    \"ウ'\" -> \"w\"\n",
"    \"フ'\" -> \"f\"\n",
"    \"ブ'\" -> \"v\"\n",
"\n"]

theorem lines1_ok : Part true lang macros vars (str "config") lines1 (str "rewrite") := by
  apply piece_of
  · dsimp only [lines1]; repeat (first | exact .nil | apply Spells.cons)
  · decide +kernel

def lines2 : List String := [
"    \"ア\" -> \"a\"\n",
"    \"イ\" -> \"i\"\n",
"    \"ウ\" -> \"u\"\n",
"    \"エ\" -> \"e\"\n",
"    \"オ\" -> \"o\"\n",
"\n",
"    \"カ\" -> \"ka\"\n",
"    \"キ\" -> \"ki\"\n",
"    \"ク\" -> \"ku\"\n",
"    \"ケ\" -> \"ke\"\n",
"    \"コ\" -> \"ko\"\n",
"\n"]

theorem lines2_ok : Part true lang macros vars (str "rewrite") lines2 (str "rewrite") := by
  apply piece_of
  · dsimp only [lines2]; repeat (first | exact .nil | apply Spells.cons)
  · decide +kernel

def lines3 : List String := [
"    \"ガ\" -> \"ga\"\n",
"    \"ギ\" -> \"gi\"\n",
"    \"グ\" -> \"gu\"\n",
"    \"ゲ\" -> \"ge\"\n",
"    \"ゴ\" -> \"go\"\n",
"\n",
"    \"サ\" -> \"sa\"\n",
"    \"シ\" -> \"si\"\n",
"    \"ス\" -> \"su\"\n",
"    \"セ\" -> \"se\"\n",
"    \"ソ\" -> \"so\"\n",
"\n"]

theorem lines3_ok : Part true lang macros vars (str "rewrite") lines3 (str "rewrite") := by
  apply piece_of
  · dsimp only [lines3]; repeat (first | exact .nil | apply Spells.cons)
  · decide +kernel

def lines4 : List String := [
"    \"ザ\" -> \"za\"\n",
"    \"ジ\" -> \"zi\"\n",
"    \"ズ\" -> \"zu\"\n",
"    \"ゼ\" -> \"ze\"\n",
"    \"ゾ\" -> \"zo\"\n",
"\n",
"    \"タ\" -> \"ta\"\n",
"    \"チ\" -> \"ci\"\n",
"    \"ツ\" -> \"cu\"\n",
"    \"テ\" -> \"te\"\n",
"    \"ト\" -> \"to\"\n",
"\n"]

theorem lines4_ok : Part true lang macros vars (str "rewrite") lines4 (str "rewrite") := by
  apply piece_of
  · dsimp only [lines4]; repeat (first | exact .nil | apply Spells.cons)
  · decide +kernel

def lines5 : List String := [
"    \"ダ\" -> \"da\"\n",
"    \"ヂ\" -> \"zi\"\n",
"    \"ヅ\" -> \"zu\"\n",
"    \"デ\" -> \"de\"\n",
"    \"ド\" -> \"do\"\n",
"\n",
"    \"ナ\" -> \"na\"\n",
"    \"ニ\" -> \"ni\"\n",
"    \"ヌ\" -> \"nu\"\n",
"    \"ネ\" -> \"ne\"\n",
"    \"ノ\" -> \"no\"\n",
"\n"]

theorem lines5_ok : Part true lang macros vars (str "rewrite") lines5 (str "rewrite") := by
  apply piece_of
  · dsimp only [lines5]; repeat (first | exact .nil | apply Spells.cons)
  · decide +kernel

def lines6 : List String := [
"    \"ハ\" -> \"ha\"\n",
"    \"ヒ\" -> \"hi\"\n",
"    \"フ\" -> \"hu\"\n",
"    \"ヘ\" -> \"he\"\n",
"    \"ホ\" -> \"ho\"\n",
"\n",
"    \"バ\" -> \"ba\"\n",
"    \"ビ\" -> \"bi\"\n",
"    \"ブ\" -> \"bu\"\n",
"    \"ベ\" -> \"be\"\n",
"    \"ボ\" -> \"bo\"\n",
"\n"]

theorem lines6_ok : Part true lang macros vars (str "rewrite") lines6 (str "rewrite") := by
  apply piece_of
  · dsimp only [lines6]; repeat (first | exact .nil | apply Spells.cons)
  · decide +kernel

def lines7 : List String := [
"    \"パ\" -> \"pa\"\n",
"    \"ピ\" -> \"pi\"\n",
"    \"プ\" -> \"pu\"\n",
"    \"ペ\" -> \"pe\"\n",
"    \"ポ\" -> \"po\"\n",
"\n",
"    \"マ\" -> \"ma\"\n",
"    \"ミ\" -> \"mi\"\n",
"    \"ム\" -> \"mu\"\n",
"    \"メ\" -> \"me\"\n",
"    \"モ\" -> \"mo\"\n",
"\n"]

theorem lines7_ok : Part true lang macros vars (str "rewrite") lines7 (str "rewrite") := by
  apply piece_of
  · dsimp only [lines7]; repeat (first | exact .nil | apply Spells.cons)
  · decide +kernel

def lines8 : List String := [
"    \"ヤ\" -> \"ya\"\n",
"    \"ユ\" -> \"yu\"\n",
"    \"ヨ\" -> \"yo\"\n",
"\n",
"    \"ャ\" -> \"ja\"\n",
"    \"ュ\" -> \"ju\"\n",
"    \"ョ\" -> \"jo\"\n",
"\n",
"    \"ラ\" -> \"la\"\n",
"    \"リ\" -> \"li\"\n",
"    \"ル\" -> \"lu\"\n",
"    \"レ\" -> \"le\"\n"]

theorem lines8_ok : Part true lang macros vars (str "rewrite") lines8 (str "rewrite") := by
  apply piece_of
  · dsimp only [lines8]; repeat (first | exact .nil | apply Spells.cons)
  · decide +kernel

def lines9 : List String := [
"    \"ロ\" -> \"lo\"\n",
"\n",
"    \"ワ\" -> \"wa\"\n",
"    \"ヰ\" -> \"i\"\n",
"    \"ヱ\" -> \"e\"\n",
"    \"ヲ\" -> \"o\"\n",
"\n",
"    \"ン\" -> \"N\"\n",
"    \"ッ\" -> \"T\"\n",
"    \"ヴ\" -> \"b\"\n",
"\n",
"    # Plosive at Beginning\n",
"    \"^k\"      -> \"g\"\n",
"    \"^t\"      -> \"d\"\n"]

theorem lines9_ok : Part true lang macros vars (str "rewrite") lines9 (str "rewrite") := by
  apply piece_of
  · dsimp only [lines9]; repeat (first | exact .nil | apply Spells.cons)
  · decide +kernel

def lines10 : List String := [
"    \"^c{a|i}\" -> \"z\"\n",
"\n",
"    # Small Vowels\n",
"    \"{t|d}o'u\" -> \"u\"\n",
"    \"o'u\"      -> \"o\"\n",
"    \"u'o\"      -> \"o\"\n",
"    \"i'e\"      -> \"je\"\n",
"    \"(u|e)'i\"  -> \"i\"\n",
"\n",
"    # Diphthong after \"ㅈ\" and \"ㅊ\"\n",
"    \"{c|z}ija\" -> \"a\"\n",
"    \"{c|z}ijo\" -> \"o\"\n",
"\n"]

theorem lines10_ok : Part true lang macros vars (str "rewrite") lines10 (str "rewrite") := by
  apply piece_of
  · dsimp only [lines10]; repeat (first | exact .nil | apply Spells.cons)
  · decide +kernel

def lines11 : List String := [
"transcribe:\n",
"    \"{c|z}iju\" -> \"ㅜ\"\n",
"\n",
"    \"cu\" -> \"쓰\"\n",
"    \"wa\" -> \"ㅘ\"\n",
"\n",
"    \"{s|z}u\" -> \"ㅡ\"\n",
"    \"{s}je\"  -> \"ㅖ\"\n",
"\n",
"    \"k\" -> \"ㅋ\"\n",
"    \"g\" -> \"ㄱ\"\n",
"    \"s\" -> \"ㅅ\"\n",
"    \"z\" -> \"ㅈ\"\n",
"    \"t\" -> \"ㅌ\"\n"]

theorem lines11_ok : Part true lang macros vars (str "rewrite") lines11 (str "transcribe") := by
  apply piece_of
  · dsimp only [lines11]; repeat (first | exact .nil | apply Spells.cons)
  · decide +kernel

def lines12 : List String := [
"    \"c\" -> \"ㅊ\"\n",
"    \"d\" -> \"ㄷ\"\n",
"    \"n\" -> \"ㄴ\"\n",
"    \"h\" -> \"ㅎ\"\n",
"    \"b\" -> \"ㅂ\"\n",
"    \"v\" -> \"ㅂ\"\n",
"    \"p\" -> \"ㅍ\"\n",
"    \"f\" -> \"ㅍ\"\n",
"    \"m\" -> \"ㅁ\"\n",
"    \"l\" -> \"ㄹ\"\n",
"\n"]

theorem lines12_ok : Part true lang macros vars (str "transcribe") lines12 (str "transcribe") := by
  apply piece_of
  · dsimp only [lines12]; repeat (first | exact .nil | apply Spells.cons)
  · decide +kernel

def lines13 : List String := [
"    \"ya\" -> \"야\"\n",
"    \"yu\" -> \"유\"\n",
"    \"yo\" -> \"요\"\n",
"\n",
"    \"ija\" -> \"ㅑ\"\n",
"    \"iju\" -> \"ㅠ\"\n",
"    \"ijo\" -> \"ㅛ\"\n",
"\n",
"    \"wa\" -> \"ㅘ\"\n",
"    \"wi\" -> \"ㅟ\"\n",
"    \"we\" -> \"ㅞ\"\n",
"    \"wo\" -> \"ㅝ\"\n",
"\n"]

theorem lines13_ok : Part true lang macros vars (str "transcribe") lines13 (str "transcribe") := by
  apply piece_of
  · dsimp only [lines13]; repeat (first | exact .nil | apply Spells.cons)
  · decide +kernel

def lines14 : List String := [
"    \"a\" -> \"ㅏ\"\n",
"    \"i\" -> \"ㅣ\"\n",
"    \"u\" -> \"ㅜ\"\n",
"    \"e\" -> \"ㅔ\"\n",
"    \"o\" -> \"ㅗ\"\n",
"\n",
"    \"N\" -> \"-ㄴ\"\n",
"    \"T\" -> \"-ㅅ\"\n",
"\n"]

theorem lines14_ok : Part true lang macros vars (str "transcribe") lines14 (str "transcribe") := by
  apply piece_of
  · dsimp only [lines14]; repeat (first | exact .nil | apply Spells.cons)
  · decide +kernel

def lines15 : List String := [
"test:\n",
"    # Person names\n",
"    \"木村拓哉\"    -> \"기무라 다쿠야\"\n",
"    \"新海誠\"      -> \"신카이 마코토\"\n",
"    \"鈴木大地\"    -> \"스즈키 다이치\"\n",
"    \"加藤勝信\"    -> \"가토 가쓰노부\"\n",
"    \"山本幸三\"    -> \"야마모토 고조\"\n",
"    \"今村雅弘\"    -> \"이마무라 마사히로\"\n",
"    \"宮本茂\"      -> \"미야모토 시게루\"\n",
"    \"こうだ くみ\" -> \"고다 구미\"\n",
"    \"田中雪男\"    -> \"다나카 유키오\"\n",
"\n",
"    # Ambiguous person names\n",
"    \"妹尾あいこ\" -> \"세노오 아이코\"\n",
"    \"上条当麻\"   -> \"가미조 도마\"\n",
"    \"小泉純一郎\" -> \"고이즈미 준이치로\"\n",
"    \"東條希\"     -> \"도조 노조미\"\n",
"    \"遠藤正明\"   -> \"엔도 마사아키\"\n",
"    \"是枝裕和\"   -> \"고레에다 히로카즈\"\n",
"    \"井上敏樹\"   -> \"이노우에 도시키\"\n",
"    \"麻生太郎\"   -> \"아소 다로\"\n",
"\n",
"    # Place names\n",
"    \"東京\"   -> \"도쿄\"\n",
"    \"九州\"   -> \"규슈\"\n",
"    \"新潟\"   -> \"니가타\"\n",
"    \"大阪\"   -> \"오사카\"\n",
"    \"秋葉原\" -> \"아키하바라\"\n",
"    \"北海道\" -> \"홋카이도\"\n",
"    \"京都\"   -> \"교토\"\n",
"    \"神戸\"   -> \"고베\"\n",
"    \"姫路\"   -> \"히메지\"\n",
"    \"嵐山\"   -> \"아라시야마\"\n",
"    \"西表\"   -> \"이리오모테\"\n",
"    \"渋谷\"   -> \"시부야\"\n",
"    \"東北\"   -> \"도호쿠\"\n",
"\n",
"    # Place names with \"ヶ\"\n",
"    \"自由ヶ丘\" -> \"지유가오카\"\n",
"    \"鳩ヶ谷\"   -> \"하토가야\"\n",
"    \"茅ヶ崎\"   -> \"지가사키\"\n",
"    \"関ヶ原\"   -> \"세키가하라\"\n",
"\n",
"    # Companies\n",
"    \"兼松\"             -> \"가네마쓰\"\n",
"    \"カルビー\"         -> \"가루비\"\n",
"    \"京セラ\"           -> \"교세라\"\n",
"    \"九州おぎはら産業\" -> \"규슈오기하라산교\"\n",
"    \"任天堂\"           -> \"닌텐도\"\n",
"    \"日産\"             -> \"닛산\"\n",
"    \"ダイソー\"         -> \"다이소\"\n",
"    \"東芝\"             -> \"도시바\"\n",
"    \"三菱\"             -> \"미쓰비시\"\n",
"    \"三洋\"             -> \"산요\"\n",
"    \"セガ\"             -> \"세가\"\n",
"    \"ソニー\"           -> \"소니\"\n",
"    \"日立\"             -> \"히타치\"\n",
"    \"スタジオジブリ\"   -> \"스타지오지부리\"\n",
"\n",
"    # Dishes\n",
"    \"寿司\"     -> \"스시\"\n",
"    \"丼\"       -> \"돈부리\"\n",
"    \"麺類\"     -> \"멘루이\"\n",
"    \"刺身\"     -> \"사시미\"\n",
"    \"山葵\"     -> \"와사비\"\n",
"    \"焼き蕎麦\" -> \"야키소바\"\n",
"    \"たこやき\" -> \"다코야키\"\n",
"\n",
"    # Movie, animation, or game titles\n",
"    \"天空の城ラピュタ\"         -> \"덴쿠노시로라퓨타\"\n",
"    \"風の谷のナウシカ\"         -> \"가제노타니노나우시카\"\n",
"    \"新世紀エヴァンゲリオン\"   -> \"신세이키에반게리온\"\n",
"    \"嫌われ松子の一生\"         -> \"기라와레마쓰코노잇쇼\"\n",
"    \"世界の中心で、愛をさけぶ\" -> \"세카이노추신데, 아이오사케부\"\n",
"    \"いま、会いにゆきます\"     -> \"이마, 아이니유키마스\"\n",
"    \"スレイヤーズ\"             -> \"스레이야즈\"\n",
"    \"美少女戦士セーラームーン\" -> \"비쇼조센시세라문\"\n",
"    \"ポケットモンスター\"       -> \"포켓토몬스타\"\n",
"    \"デジタルモンスター\"       -> \"데지타루몬스타\"\n",
"    \"魔女の宅急便\"             -> \"마조노탓큐빈\"\n",
"    \"神秘の世界エルハザード\"   -> \"신피노세카이에루하자도\"\n",
"    \"天地無用\"                 -> \"덴치무요\"\n",
"    \"ああっ女神さまっ\"         -> \"아앗메가미사맛\"\n",
"    \"ハウルの動く城\"           -> \"하우루노우고쿠시로\"\n",
"    \"言の葉の庭\"               -> \"고토노하노니와\"\n",
"    \"魔界戦記ディスガイア\"     -> \"마카이센키디스가이아\"\n",
"    \"スーパーマリオ\"           -> \"스파마리오\"\n",
"    \"犬夜叉\"                   -> \"이누야샤\"\n",
"    \"君の名は。\"               -> \"기미노나하.\"\n",
"    \"歴史への招待\"             -> \"레키시헤노쇼타이\"\n",
"    \"温泉へ行こう!\"            -> \"온센헤이코!\"\n",
"\n",
"    # Loanwords\n",
"    \"パソコン\"     -> \"파소콘\"\n",
"    \"トイレット\"   -> \"도이렛토\"\n",
"    \"バス\"         -> \"바스\"\n"]

theorem lines15_ok : Part true lang macros vars (str "transcribe") lines15 (str "test") := by
  apply piece_of
  · dsimp only [lines15]; repeat (first | exact .nil | apply Spells.cons)
  · decide +kernel

def lines16 : List String := [
"    \"タクシー\"     -> \"다쿠시\"\n",
"    \"キーボード\"   -> \"기보도\"\n",
"    \"マクドナルド\" -> \"마쿠도나루도\"\n",
"\n",
"    # Loanwords with small Katakana letters\n",
"    \"ディーブイディー\" -> \"디부이디\"\n",
"\n",
"    # Loanwords with \"ヴ\"\n",
"    \"ヴァイオリン\" -> \"바이오린\"\n",
"    \"ヴナロード\"   -> \"브나로도\"\n",
"    \"ニヴヒ\"       -> \"니브히\"\n",
"    \"ネゲヴ\"       -> \"네게브\"\n",
"    \"モルジヴ\"     -> \"모루지브\"\n",
"    \"テルアヴィヴヤッフォ\" -> \"데루아비브얏포\"\n",
"\n",
"    # Iteration mark for Kanji\n",
"    \"時々\"   -> \"도키도키\"\n",
"    \"人々\"   -> \"히토비토\"\n",
"    \"山々\"   -> \"야마야마\"\n",
"    \"個々\"   -> \"고코\"\n",
"    \"翌々日\" -> \"요쿠요쿠지쓰\"\n",
"    \"代々木\" -> \"요요기\"\n",
"\n",
"    # Iteration mark for Kana\n",
"    \"さゝき\" -> \"사사키\"\n",
"    \"いすゞ\" -> \"이스즈\"\n",
"    \"バナヽ\" -> \"바나나\"\n",
"    \"いすゞ自動車\" -> \"이스즈지도샤\"\n",
"\n",
"    # Long vowels\n",
"    \"いいえ\" -> \"이에\"\n",
"\n",
"    # Ambiguous linked short vowels\n",
"    \"かわいい\" -> \"가와이이\"\n",
"    \"思う\"     -> \"오모우\"\n",
"    \"縫う\"     -> \"누우\"\n",
"    \"聞いて\"   -> \"기이테\"\n",
"\n",
"    # Sentences with an auxiliary verb\n",
"    # https://www.kokugobunpou.com/助動詞/\n",
"    \"青森は寒かろう\"   -> \"아오모리하사무카로\"\n",
"    \"ごはんを食べよう\" -> \"고한오타베요\"\n",
"    \"きれいだろう\"     -> \"기레이다로\"\n",
"    \"起きよう\"         -> \"오키요\"\n",
"    \"話さなかろう\"     -> \"하나사나카로\"\n",
"    \"起きさせよう\"     -> \"오키사세요\"\n",
"    \"本物らしい\"       -> \"혼모노라시\"\n",
"\n",
"    # Pokemon\n",
"    \"アーボ\"     -> \"아보\"\n",
"    \"ピカチュウ\" -> \"피카추\"\n",
"    \"ライチュウ\" -> \"라이추\"\n",
"    \"プリン\"     -> \"푸린\"\n",
"    \"パラス\"     -> \"파라스\"\n",
"    \"ディグダ\"   -> \"디구다\"\n",
"    \"ガーディ\"   -> \"가디\"\n",
"    \"ケーシィ\"   -> \"게시\"\n",
"    \"ヤドン\"     -> \"야돈\"\n",
"    \"ヤドラン\"   -> \"야도란\"\n",
"    \"ゴース\"     -> \"고스\"\n",
"    \"ゴースト\"   -> \"고스토\"\n",
"    \"ルージュラ\" -> \"루주라\"\n",
"    \"ラプラス\"   -> \"라푸라스\"\n",
"    \"メタモン\"   -> \"메타몬\"\n",
"    \"イーブイ\"   -> \"이부이\"\n",
"    \"プテラ\"     -> \"푸테라\"\n",
"    \"ミュウ\"     -> \"뮤\"\n"]

theorem lines16_ok : Part true lang macros vars (str "test") lines16 (str "test") := by
  apply piece_of
  · dsimp only [lines16]; repeat (first | exact .nil | apply Spells.cons)
  · decide +kernel

/-- The lines of the file. -/
def lines : List String := head ++ (lines1 ++ (lines2 ++ (lines3 ++ (lines4 ++ (lines5 ++ (lines6 ++ (lines7 ++ (lines8 ++ (lines9 ++ (lines10 ++ (lines11 ++ (lines12 ++ (lines13 ++ (lines14 ++ (lines15 ++ (lines16))))))))))))))))

/-- The file is a spec with checked rules. -/
theorem sound : Sound (text lines) lang := sound_of head_ok (lines1_ok.append (lines2_ok.append (lines3_ok.append (lines4_ok.append (lines5_ok.append (lines6_ok.append (lines7_ok.append (lines8_ok.append (lines9_ok.append (lines10_ok.append (lines11_ok.append (lines12_ok.append (lines13_ok.append (lines14_ok.append (lines15_ok.append (lines16_ok)))))))))))))))) (by decide +kernel)

end Verif.Specs.Jpn
