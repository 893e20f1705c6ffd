import Verif.Proofs.Bundle

/-! specs/jpn-ck.hsl, generated by tools/gen_specs.py. -/

set_option Elab.async false

namespace Verif.Specs.JpnCk

open Hsl

/-- The language of the spec. -/
def lang : Language :=
  ⟨str "jpn-ck", (str "ja", str "jpn"), str "Japanese (C.K.)", str "일본어(최영애-김용옥)", str "Hrkt", [str "furigana"]⟩

def macros : List (Bytes × Bytes) := []

def vars : List (Bytes × List Bytes) := []

def keys : List (Rune × List Rune) := []

def kept : List Rune := []

def head : List String := [
"lang:\n",
"    id       = \"jpn-ck\"\n",
"    codes    = \"ja\", \"jpn\"\n",
"    english  = \"Japanese (C.K.)\"\n",
"    korean   = \"일본어(최영애-김용옥)\"\n",
"    script   = \"Hrkt\"\n",
"    translit = \"furigana\"\n",
"\n",
"config:\n",
"    author = \"Heungsub Lee <heungsub@subl.ee>\"\n",
"    stage  = \"draft\"\n",
"\n"]

theorem head_ok : ∃ xs, Reads [] (runes (text head)) xs (str "config") ∧ headOk lang macros vars keys kept xs = true := by
  apply piece_of
  · dsimp only [head]; repeat (first | exact .nil | apply Spells.cons)
  · decide +kernel

def lines1 : List String := [
"rewrite:\n",
"    \"・\" -> \"\"\n",
"\n",
"    \"ァ\" -> \"'a\"\n",
"    \"ィ\" -> \"'i\"\n",
"    \"ゥ\" -> \"'u\"\n",
"    \"ェ\" -> \"'e\"\n",
"    \"ォ\" -> \"'o\"\n",
"\n",
"    \"ウ'\" -> \"w\"\n",
"    \"フ'\" -> \"f\"\n",
"    \"ブ'\" -> \"v\"\n",
"\n",
"    \"ア\" -> \"a\"\n"]

theorem lines1_ok : Part true lang macros vars (str "config") lines1 (str "rewrite") := by
  apply piece_of
  · dsimp only [lines1]; repeat (first | exact .nil | apply Spells.cons)
  · decide +kernel

def lines2 : List String := [
"    \"イ\" -> \"i\"\n",
"    \"ウ\" -> \"u\"\n",
"    \"エ\" -> \"e\"\n",
"    \"オ\" -> \"o\"\n",
"\n",
"    \"カ\" -> \"ka\"\n",
"    \"キ\" -> \"ki\"\n",
"    \"ク\" -> \"ku\"\n",
"    \"ケ\" -> \"ke\"\n",
"    \"コ\" -> \"ko\"\n",
"\n",
"    \"ガ\" -> \"ga\"\n"]

theorem lines2_ok : Part true lang macros vars (str "rewrite") lines2 (str "rewrite") := by
  apply piece_of
  · dsimp only [lines2]; repeat (first | exact .nil | apply Spells.cons)
  · decide +kernel

def lines3 : List String := [
"    \"ギ\" -> \"gi\"\n",
"    \"グ\" -> \"gu\"\n",
"    \"ゲ\" -> \"ge\"\n",
"    \"ゴ\" -> \"go\"\n",
"\n",
"    \"サ\" -> \"sa\"\n",
"    \"シ\" -> \"si\"\n",
"    \"ス\" -> \"su\"\n",
"    \"セ\" -> \"se\"\n",
"    \"ソ\" -> \"so\"\n",
"\n",
"    \"ザ\" -> \"za\"\n"]

theorem lines3_ok : Part true lang macros vars (str "rewrite") lines3 (str "rewrite") := by
  apply piece_of
  · dsimp only [lines3]; repeat (first | exact .nil | apply Spells.cons)
  · decide +kernel

def lines4 : List String := [
"    \"ジ\" -> \"zi\"\n",
"    \"ズ\" -> \"zu\"\n",
"    \"ゼ\" -> \"ze\"\n",
"    \"ゾ\" -> \"zo\"\n",
"\n",
"    \"タ\" -> \"ta\"\n",
"    \"チ\" -> \"ci\"\n",
"    \"ツ\" -> \"cu\"\n",
"    \"テ\" -> \"te\"\n",
"    \"ト\" -> \"to\"\n",
"\n",
"    \"ダ\" -> \"da\"\n"]

theorem lines4_ok : Part true lang macros vars (str "rewrite") lines4 (str "rewrite") := by
  apply piece_of
  · dsimp only [lines4]; repeat (first | exact .nil | apply Spells.cons)
  · decide +kernel

def lines5 : List String := [
"    \"ヂ\" -> \"zi\"\n",
"    \"ヅ\" -> \"zu\"\n",
"    \"デ\" -> \"de\"\n",
"    \"ド\" -> \"do\"\n",
"\n",
"    \"ナ\" -> \"na\"\n",
"    \"ニ\" -> \"ni\"\n",
"    \"ヌ\" -> \"nu\"\n",
"    \"ネ\" -> \"ne\"\n",
"    \"ノ\" -> \"no\"\n",
"\n",
"    \"ハ\" -> \"ha\"\n"]

theorem lines5_ok : Part true lang macros vars (str "rewrite") lines5 (str "rewrite") := by
  apply piece_of
  · dsimp only [lines5]; repeat (first | exact .nil | apply Spells.cons)
  · decide +kernel

def lines6 : List String := [
"    \"ヒ\" -> \"hi\"\n",
"    \"フ\" -> \"hu\"\n",
"    \"ヘ\" -> \"he\"\n",
"    \"ホ\" -> \"ho\"\n",
"\n",
"    \"バ\" -> \"ba\"\n",
"    \"ビ\" -> \"bi\"\n",
"    \"ブ\" -> \"bu\"\n",
"    \"ベ\" -> \"be\"\n",
"    \"ボ\" -> \"bo\"\n",
"\n",
"    \"パ\" -> \"pa\"\n"]

theorem lines6_ok : Part true lang macros vars (str "rewrite") lines6 (str "rewrite") := by
  apply piece_of
  · dsimp only [lines6]; repeat (first | exact .nil | apply Spells.cons)
  · decide +kernel

def lines7 : List String := [
"    \"ピ\" -> \"pi\"\n",
"    \"プ\" -> \"pu\"\n",
"    \"ペ\" -> \"pe\"\n",
"    \"ポ\" -> \"po\"\n",
"\n",
"    \"マ\" -> \"ma\"\n",
"    \"ミ\" -> \"mi\"\n",
"    \"ム\" -> \"mu\"\n",
"    \"メ\" -> \"me\"\n",
"    \"モ\" -> \"mo\"\n",
"\n",
"    \"ヤ\" -> \"ya\"\n"]

theorem lines7_ok : Part true lang macros vars (str "rewrite") lines7 (str "rewrite") := by
  apply piece_of
  · dsimp only [lines7]; repeat (first | exact .nil | apply Spells.cons)
  · decide +kernel

def lines8 : List String := [
"    \"ユ\" -> \"yu\"\n",
"    \"ヨ\" -> \"yo\"\n",
"\n",
"    \"ャ\" -> \"ja\"\n",
"    \"ュ\" -> \"ju\"\n",
"    \"ョ\" -> \"jo\"\n",
"\n",
"    \"ラ\" -> \"la\"\n",
"    \"リ\" -> \"li\"\n",
"    \"ル\" -> \"lu\"\n",
"    \"レ\" -> \"le\"\n",
"    \"ロ\" -> \"lo\"\n",
"\n"]

theorem lines8_ok : Part true lang macros vars (str "rewrite") lines8 (str "rewrite") := by
  apply piece_of
  · dsimp only [lines8]; repeat (first | exact .nil | apply Spells.cons)
  · decide +kernel

def lines9 : List String := [
"    \"ワ\" -> \"wa\"\n",
"    \"ヰ\" -> \"i\"\n",
"    \"ヱ\" -> \"e\"\n",
"    \"ヲ\" -> \"o\"\n",
"\n",
"    \"ン\" -> \"N\"\n",
"    \"ッ\" -> \"T\"\n",
"    \"ヴ\" -> \"b\"\n",
"\n",
"    # Small Vowels\n",
"    \"u'o\"     -> \"o\"\n",
"    \"o'u\"     -> \"o\"\n",
"    \"i'e\"     -> \"je\"\n"]

theorem lines9_ok : Part true lang macros vars (str "rewrite") lines9 (str "rewrite") := by
  apply piece_of
  · dsimp only [lines9]; repeat (first | exact .nil | apply Spells.cons)
  · decide +kernel

def lines10 : List String := [
"    \"(u|e)'i\" -> \"i\"\n",
"\n",
"    # Long Vowel Sign\n",
"    \"{a}ー\" -> \"a\"\n",
"    \"{i}ー\" -> \"i\"\n",
"    \"{u}ー\" -> \"u\"\n",
"    \"{e}ー\" -> \"i\"\n",
"    \"{o}ー\" -> \"o\"\n",
"\n",
"    # Long Vowels\n",
"    \"{(y|j)o}o\" -> \"o\"\n",
"    \"{o}u\"      -> \"o\"\n",
"\n"]

theorem lines10_ok : Part true lang macros vars (str "rewrite") lines10 (str "rewrite") := by
  apply piece_of
  · dsimp only [lines10]; repeat (first | exact .nil | apply Spells.cons)
  · decide +kernel

def lines11 : List String := [
"transcribe:\n",
"    \"c{ij}\" -> \"ㅊ\"\n",
"\n",
"    \"wa\" -> \"ㅘ\"\n",
"\n",
"    \"{s|z|c}u\" -> \"ㅡ\"\n",
"    \"{s}je\"    -> \"ㅖ\"\n",
"\n",
"    \"k\" -> \"ㅋ\"\n",
"    \"g\" -> \"ㄱ\"\n",
"    \"s\" -> \"ㅅ\"\n",
"    \"z\" -> \"ㅈ\"\n",
"    \"t\" -> \"ㅌ\"\n",
"    \"c\" -> \"ㅉ\"\n"]

theorem lines11_ok : Part true lang macros vars (str "rewrite") lines11 (str "transcribe") := by
  apply piece_of
  · dsimp only [lines11]; repeat (first | exact .nil | apply Spells.cons)
  · decide +kernel

def lines12 : List String := [
"    \"d\" -> \"ㄷ\"\n",
"    \"n\" -> \"ㄴ\"\n",
"    \"h\" -> \"ㅎ\"\n",
"    \"b\" -> \"ㅂ\"\n",
"    \"v\" -> \"ㅂ\"\n",
"    \"p\" -> \"ㅍ\"\n",
"    \"f\" -> \"ㅍ\"\n",
"    \"m\" -> \"ㅁ\"\n",
"    \"l\" -> \"ㄹ\"\n",
"\n",
"    \"ya\" -> \"야\"\n"]

theorem lines12_ok : Part true lang macros vars (str "transcribe") lines12 (str "transcribe") := by
  apply piece_of
  · dsimp only [lines12]; repeat (first | exact .nil | apply Spells.cons)
  · decide +kernel

def lines13 : List String := [
"    \"yu\" -> \"유\"\n",
"    \"yo\" -> \"요\"\n",
"\n",
"    \"ija\" -> \"ㅑ\"\n",
"    \"iju\" -> \"ㅠ\"\n",
"    \"ijo\" -> \"ㅛ\"\n",
"\n",
"    \"wa\" -> \"ㅘ\"\n",
"    \"wi\" -> \"ㅟ\"\n",
"    \"we\" -> \"ㅞ\"\n",
"    \"wo\" -> \"ㅝ\"\n",
"\n",
"    \"a\" -> \"ㅏ\"\n"]

theorem lines13_ok : Part true lang macros vars (str "transcribe") lines13 (str "transcribe") := by
  apply piece_of
  · dsimp only [lines13]; repeat (first | exact .nil | apply Spells.cons)
  · decide +kernel

def lines14 : List String := [
"    \"i\" -> \"ㅣ\"\n",
"    \"u\" -> \"ㅜ\"\n",
"    \"e\" -> \"ㅔ\"\n",
"    \"o\" -> \"ㅗ\"\n",
"\n",
"    \"N\" -> \"-ㄴ\"\n",
"    \"T\" -> \"-ㅅ\"\n",
"\n"]

theorem lines14_ok : Part true lang macros vars (str "transcribe") lines14 (str "transcribe") := by
  apply piece_of
  · dsimp only [lines14]; repeat (first | exact .nil | apply Spells.cons)
  · decide +kernel

def lines15 : List String := [
"test:\n",
"    # From Wikipedia: https://ko.wikipedia.org/wiki/최영애-김용옥_일본어_표기법\n",
"    \"アー\" -> \"아아\"\n",
"    \"ウー\" -> \"우우\"\n",
"    \"オー\" -> \"오오\"\n",
"    \"東京\" -> \"토오쿄오\"\n",
"    \"宗教\" -> \"슈우쿄오\"\n",
"    \"経験\" -> \"케이켄\"\n",
"    \"性格\" -> \"세이카쿠\"\n",
"    \"英語\" -> \"에이고\"\n",
"    \"圧迫\" -> \"앗파쿠\"\n",
"    \"国会\" -> \"콧카이\"\n",
"    \"突進\" -> \"톳신\"\n",
"    \"密着\" -> \"밋챠쿠\"\n",
"    \"出張\" -> \"슛쵸오\"\n",
"    \"あっ\" -> \"앗\"\n",
"    \"一寸\" -> \"잇슨\"\n",
"    \"熱中\" -> \"넷츄우\"\n",
"    \"がっちり\" -> \"갓찌리\"\n",
"    \"やっ\" -> \"얏\"\n",
"\n",
"    # From Zetawiki: https://zetawiki.com/wiki/최영애-김용옥_일본어_표기법\n",
"    \"たんぽぽ\" -> \"탄포포\"\n",
"\n",
"    # From the book \"동양학 어떻게 할 것인가\" by Do-ol.\n",
"    \"国鉄\"       -> \"코쿠테쯔\"\n",
"    \"地下鐵\"     -> \"찌카테쯔\"\n",
"    \"私鉄\"       -> \"시테쯔\"\n",
"    \"研究社\"     -> \"켄큐우샤\"\n",
"    \"室町\"       -> \"무로마찌\"\n",
"    \"明治\"       -> \"메이지\"\n",
"    \"田中館愛橘\" -> \"타나카다테 아이키쯔\"\n",
"    \"訓令式\"     -> \"쿤레이시키\"\n",
"    \"かえりてん\" -> \"카에리텐\"\n",
"    \"横浜\"       -> \"요코하마\"\n",
"\n",
"    # Cross check with KIOM: https://boncho.kiom.re.kr/tool/\n",
"    \"チェ・ゲバラ\"     -> \"쩨게바라\"\n",
"    \"スーパーマリオ\"   -> \"스우파아마리오\"\n",
"    \"スレイヤーズ\"     -> \"스레이야아즈\"\n",
"    \"たこやき\"         -> \"타코야키\"\n",
"    \"ディーブイディー\" -> \"디이부이디이\"\n",
"    \"チェ・ゲバラ\"     -> \"쩨게바라\"\n",
"\n",
"    # Pokemon\n",
"    \"アーボ\"     -> \"아아보\"\n",
"    \"ピカチュウ\" -> \"피카츄우\"\n",
"    \"ライチュウ\" -> \"라이츄우\"\n",
"    \"ガーディ\"   -> \"가아디\"\n",
"    \"ケーシィ\"   -> \"케이시이\"\n",
"    \"ゴース\"     -> \"고오스\"\n",
"    \"ゴースト\"   -> \"고오스토\"\n",
"    \"ルージュラ\" -> \"루우쥬라\"\n",
"    \"イーブイ\"   -> \"이이부이\"\n",
"    \"ミュウ\"     -> \"뮤우\"\n"]

theorem lines15_ok : Part true lang macros vars (str "transcribe") lines15 (str "test") := by
  apply piece_of
  · dsimp only [lines15]; repeat (first | exact .nil | apply Spells.cons)
  · decide +kernel

/-- The lines of the file. -/
def lines : List String := head ++ (lines1 ++ (lines2 ++ (lines3 ++ (lines4 ++ (lines5 ++ (lines6 ++ (lines7 ++ (lines8 ++ (lines9 ++ (lines10 ++ (lines11 ++ (lines12 ++ (lines13 ++ (lines14 ++ (lines15)))))))))))))))

/-- The file is a spec with checked rules. -/
theorem sound : Sound (text lines) lang := sound_of head_ok (lines1_ok.append (lines2_ok.append (lines3_ok.append (lines4_ok.append (lines5_ok.append (lines6_ok.append (lines7_ok.append (lines8_ok.append (lines9_ok.append (lines10_ok.append (lines11_ok.append (lines12_ok.append (lines13_ok.append (lines14_ok.append (lines15_ok))))))))))))))) (by decide +kernel)

end Verif.Specs.JpnCk
