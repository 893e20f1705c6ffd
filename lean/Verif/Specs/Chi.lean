import Verif.Proofs.Bundle

/-! specs/chi.hsl, generated by tools/gen_specs.py. -/

set_option Elab.async false

namespace Verif.Specs.Chi

open Hsl

/-- The language of the spec. -/
def lang : Language :=
  ⟨str "chi", (str "zh", str "chi"), str "Chinese", str "중국어", str "Latn", [str "pinyin"]⟩

def macros : List (Bytes × Bytes) := []

def vars : List (Bytes × List Bytes) := [(str "jqx", [str "j", str "q", str "x"]),
  (str "nojqx", [str "b", str "p", str "m", str "f", str "d", str "t", str "n", str "l", str "g", str "k", str "h", str "r", str "z", str "c", str "s"]),
  (str "J", [str "j", str "q", str "zh", str "ch", str "c"])]

def keys : List (Rune × List Rune) := [(252, [118]), (220, [118])]

def kept : List Rune := [118]

def head : List String := [
"lang:\n",
"    id       = \"chi\"\n",
"    codes    = \"zh\", \"chi\"\n",
"    english  = \"Chinese\"\n",
"    korean   = \"중국어\"\n",
"    script   = \"Latn\"\n",
"    translit = \"pinyin\"\n",
"\n",
"config:\n",
"    author = \"Heungsub Lee <heungsub@subl.ee>\"\n",
"    stage  = \"draft\"\n",
"\n",
"vars:\n",
"    jqx   = \"j\", \"q\", \"x\"\n",
"    nojqx = \"b\", \"p\", \"m\", \"f\", \"d\", \"t\", \"n\", \"l\", \"g\", \"k\", \"h\", \"r\", \"z\", \"c\", \"s\"\n",
"    J     = \"j\", \"q\", \"zh\", \"ch\", \"c\"\n",
"\n",
"normalize:\n",
"    \"v\" = \"ü\", \"Ü\"\n",
"\n"]

theorem head_ok : ∃ xs, Reads [] (runes (text head)) xs (str "normalize") ∧ headOk lang macros vars keys kept xs = true := by
  apply piece_of
  · dsimp only [head]; repeat (first | exact .nil | apply Spells.cons)
  · decide +kernel

def lines1 : List String := [
"rewrite:\n",
"    # \"v\" means \"ü\" in unofficial Pinyin.\n",
"    \"v\" -> \"yu\"\n",
"\n",
"    \"{c|ch|r|s|sh|z|zh}i\" -> \"i,\"\n",
"\n",
"    \"{<jqx>}ue\"   -> \"yue\"\n",
"    \"{<jqx>}uan\"  -> \"yuan\"\n",
"    \"{<jqx>}un\"   -> \"yun\"\n",
"    \"{<jqx>}u\"    -> \"yu\"\n",
"\n",
"    \"{<jqx>|<nojqx>}iong\" -> \"yong\"\n",
"\n",
"    \"{<jqx>|<nojqx>}iao\"   -> \"yao\"\n",
"    \"{<jqx>|<nojqx>}iang\"  -> \"yang\"\n",
"    \"{<jqx>|<nojqx>}ian\"   -> \"yan\"\n"]

theorem lines1_ok : Part true lang macros vars (str "normalize") lines1 (str "rewrite") := by
  apply piece_of
  · dsimp only [lines1]; repeat (first | exact .nil | apply Spells.cons)
  · decide +kernel

def lines2 : List String := [
"    \"{<jqx>|<nojqx>}ia\"    -> \"ya\"\n",
"    \"{<jqx>|<nojqx>}ie\"    -> \"ye\"\n",
"    \"{<jqx>|<nojqx>}iou\"   -> \"you\"\n",
"    \"{<jqx>|<nojqx>}iu\"    -> \"you\"\n",
"    \"{<jqx>|<nojqx>}ing\"   -> \"ying\"\n",
"    \"{<jqx>|<nojqx>}in\"    -> \"yin\"\n",
"    \"{<jqx>|<nojqx>}i{~,}\" -> \"yi\"\n",
"\n",
"    \"{<jqx>|<nojqx>}uai\"  -> \"wai\"\n",
"    \"{<jqx>|<nojqx>}uang\" -> \"wang\"\n",
"    \"{<jqx>|<nojqx>}uan\"  -> \"wan\"\n"]

theorem lines2_ok : Part true lang macros vars (str "rewrite") lines2 (str "rewrite") := by
  apply piece_of
  · dsimp only [lines2]; repeat (first | exact .nil | apply Spells.cons)
  · decide +kernel

def lines3 : List String := [
"    \"{<jqx>|<nojqx>}ua\"   -> \"wa\"\n",
"    \"{<jqx>|<nojqx>}uo\"   -> \"wo\"\n",
"    \"{<jqx>|<nojqx>}ong\"  -> \"ung\"\n",
"\n",
"    \"{<nojqx>}u\" -> \"wu\"\n",
"    \"{<jqx>|<nojqx>}r\" -> \"er\"\n",
"\n",
"    \"n$\" -> \"n,\"\n",
"    \"r$\" -> \"r,\"\n",
"\n"]

theorem lines3_ok : Part true lang macros vars (str "rewrite") lines3 (str "rewrite") := by
  apply piece_of
  · dsimp only [lines3]; repeat (first | exact .nil | apply Spells.cons)
  · decide +kernel

def lines4 : List String := [
"transcribe:\n",
"    # 촬구류(yong/-iong 제외)\n",
"    \"yue\"   -> \"ㅞ\"\n",
"    \"yuan\"  -> \"ㅟ안\"\n",
"    \"yun,?\" -> \"ㅟ-ㄴ\"\n",
"\n",
"    # 단운\n",
"    \"yu\" -> \"ㅟ\"\n",
"\n",
"    # 합구류\n",
"    \"wang\" -> \"ㅘ-ㅇ\"\n",
"    \"weng\" -> \"ㅝ-ㅇ\"\n",
"    \"ung\"  -> \"ㅜ-ㅇ\"\n",
"\n",
"    \"wan,?\" -> \"ㅘ-ㄴ\"\n",
"    \"wen,?\" -> \"ㅝ-ㄴ\"\n",
"    \"un,?\"  -> \"ㅜ-ㄴ\"\n",
"\n"]

theorem lines4_ok : Part true lang macros vars (str "rewrite") lines4 (str "transcribe") := by
  apply piece_of
  · dsimp only [lines4]; repeat (first | exact .nil | apply Spells.cons)
  · decide +kernel

def lines5 : List String := [
"    \"wa\"  -> \"ㅘ\"\n",
"    \"wo\"  -> \"ㅝ\"\n",
"    \"wai\" -> \"ㅘ이\"\n",
"    \"wei\" -> \"ㅞ이\"\n",
"    \"ui\"  -> \"ㅜ이\"\n",
"\n",
"    # 제치류(yong/-iong 추가)\n",
"    \"{<J>}yong\" -> \"ㅜ-ㅇ\"\n",
"    \"{<J>}yang\" -> \"ㅏ-ㅇ\"\n",
"    \"{<J>}yan\"  -> \"ㅔ-ㄴ\"\n",
"    \"{<J>}you\"  -> \"ㅜ\"\n",
"    \"{<J>}yai\"  -> \"ㅏㅣ\"\n"]

theorem lines5_ok : Part true lang macros vars (str "transcribe") lines5 (str "transcribe") := by
  apply piece_of
  · dsimp only [lines5]; repeat (first | exact .nil | apply Spells.cons)
  · decide +kernel

def lines6 : List String := [
"    \"{<J>}yao\"  -> \"ㅏㅗ\"\n",
"    \"{<J>}ya\"   -> \"ㅏ\"\n",
"    \"{<J>}yo\"   -> \"ㅗ\"\n",
"    \"{<J>}ye\"   -> \"ㅔ\"\n",
"\n",
"    \"yong\"  -> \"ㅠ-ㅇ\"\n",
"    \"yang\"  -> \"ㅑ-ㅇ\"\n",
"    \"yan,?\" -> \"ㅖ-ㄴ\"\n",
"    \"ying\"  -> \"ㅣ-ㅇ\"\n",
"    \"yin,?\" -> \"ㅣ-ㄴ\"\n",
"    \"you\"   -> \"ㅠ\"\n"]

theorem lines6_ok : Part true lang macros vars (str "transcribe") lines6 (str "transcribe") := by
  apply piece_of
  · dsimp only [lines6]; repeat (first | exact .nil | apply Spells.cons)
  · decide +kernel

def lines7 : List String := [
"    \"yai\"   -> \"ㅑㅣ\"\n",
"    \"yao\"   -> \"ㅑㅗ\"\n",
"    \"ya\"    -> \"ㅑ\"\n",
"    \"yo\"    -> \"ㅛ\"\n",
"    \"ye\"    -> \"ㅖ\"\n",
"\n",
"    # 부성운\n",
"    \"ang\"  -> \"ㅏ-ㅇ\"\n",
"    \"eng\"  -> \"ㅓ-ㅇ\"\n",
"    \"an,?\" -> \"ㅏ-ㄴ\"\n",
"    \"en,?\" -> \"ㅓ-ㄴ\"\n",
"\n",
"    # 권설운\n",
"    \"er,?\" -> \"ㅓ-ㄹ\"\n",
"\n",
"    # 종성\n"]

theorem lines7_ok : Part true lang macros vars (str "transcribe") lines7 (str "transcribe") := by
  apply piece_of
  · dsimp only [lines7]; repeat (first | exact .nil | apply Spells.cons)
  · decide +kernel

def lines8 : List String := [
"    \"ng,\" -> \"-ㅇ\"\n",
"    \"n,\"  -> \"-ㄴ\"\n",
"    \"r,\"  -> \"-ㄹ\"\n",
"\n",
"    # 복운\n",
"    \"ai\" -> \"ㅏㅣ\"\n",
"    \"ei\" -> \"ㅔㅣ\"\n",
"    \"ao\" -> \"ㅏㅗ\"\n",
"    \"ou\" -> \"ㅓㅜ\"\n",
"\n",
"    # 단운\n",
"    \"a\"  -> \"ㅏ\"\n",
"    \"o\"  -> \"ㅗ\"\n",
"    \"e\"  -> \"ㅓ\"\n"]

theorem lines8_ok : Part true lang macros vars (str "transcribe") lines8 (str "transcribe") := by
  apply piece_of
  · dsimp only [lines8]; repeat (first | exact .nil | apply Spells.cons)
  · decide +kernel

def lines9 : List String := [
"    \"ê\"  -> \"ㅔ\"\n",
"    \"i,\" -> \"ㅡ\"\n",
"    \"i\"  -> \"ㅣ\"\n",
"    \"wu\" -> \"ㅜ\"\n",
"\n",
"    # 교설첨성\n",
"    \"zh\" -> \"ㅈ\"\n",
"    \"ch\" -> \"ㅊ\"\n",
"    \"sh\" -> \"ㅅ\"\n",
"    \"r\"  -> \"ㄹ\"\n",
"\n",
"    # 설치성\n",
"    \"z\" -> \"ㅉ\"\n",
"    \"c\" -> \"ㅊ\"\n"]

theorem lines9_ok : Part true lang macros vars (str "transcribe") lines9 (str "transcribe") := by
  apply piece_of
  · dsimp only [lines9]; repeat (first | exact .nil | apply Spells.cons)
  · decide +kernel

def lines10 : List String := [
"    \"s\" -> \"ㅆ\"\n",
"\n",
"    # 중순성\n",
"    \"b\" -> \"ㅂ\"\n",
"    \"p\" -> \"ㅍ\"\n",
"    \"m\" -> \"ㅁ\"\n",
"\n",
"    # 순치성\n",
"    \"f\" -> \"ㅍ\"\n",
"\n",
"    # 설첨성\n",
"    \"d\" -> \"ㄷ\"\n",
"    \"t\" -> \"ㅌ\"\n",
"    \"n\" -> \"ㄴ\"\n",
"    \"l\" -> \"ㄹ\"\n",
"\n",
"    # 설근성\n",
"    \"g\" -> \"ㄱ\"\n"]

theorem lines10_ok : Part true lang macros vars (str "transcribe") lines10 (str "transcribe") := by
  apply piece_of
  · dsimp only [lines10]; repeat (first | exact .nil | apply Spells.cons)
  · decide +kernel

def lines11 : List String := [
"    \"k\" -> \"ㅋ\"\n",
"    \"h\" -> \"ㅎ\"\n",
"\n",
"    # 설면성\n",
"    \"j\" -> \"ㅈ\"\n",
"    \"q\" -> \"ㅊ\"\n",
"    \"x\" -> \"ㅅ\"\n",
"\n"]

theorem lines11_ok : Part true lang macros vars (str "transcribe") lines11 (str "transcribe") := by
  apply piece_of
  · dsimp only [lines11]; repeat (first | exact .nil | apply Spells.cons)
  · decide +kernel

def lines12 : List String := [
"test:\n",
"    # Person names\n",
"    \"毛澤東\" -> \"마오쩌둥\"\n",
"    \"成龍\"   -> \"청룽\"\n",
"    \"范冰冰\" -> \"판빙빙\"\n",
"    \"习近平\" -> \"시진핑\"\n",
"    \"李彦宏\" -> \"리옌훙\"\n",
"    \"孙杨\"   -> \"쑨양\"\n",
"    \"周杰伦\" -> \"저우제룬\"\n",
"    \"章子怡\" -> \"장쯔이\"\n",
"    \"邓小平\" -> \"덩샤오핑\"\n",
"    \"胡锦涛\" -> \"후진타오\"\n",
"    \"刘德华\" -> \"류더화\"\n",
"    \"张国荣\" -> \"장궈룽\"\n",
"    \"梁朝伟\" -> \"량차오웨이\"\n",
"    \"周星馳\" -> \"저우싱츠\"\n",
"    \"周润发\" -> \"저우룬파\"\n",
"    \"王祖賢\" -> \"왕쭈셴\"\n",
"    \"蒋琼耳\" -> \"장충얼\"\n",
"\n",
"    # Place names\n",
"    \"靑島\"     -> \"칭다오\"\n",
"    \"北京\"     -> \"베이징\"\n",
"    \"杭州\"     -> \"항저우\"\n",
"    \"上海\"     -> \"상하이\"\n",
"    \"延邊\"     -> \"옌볜\"\n",
"    \"大連\"     -> \"다롄\"\n",
"    \"滿州\"     -> \"만저우\"\n",
"    \"廣州\"     -> \"광저우\"\n",
"    \"重慶\"     -> \"중칭\"\n",
"    \"廣東\"     -> \"광둥\"\n",
"    \"深圳\"     -> \"선전\"\n",
"    \"吉林\"     -> \"지린\"\n",
"    \"天津\"     -> \"톈진\"\n",
"    \"臺南\"     -> \"타이난\"\n",
"    \"四川\"     -> \"쓰촨\"\n",
"    \"南京\"     -> \"난징\"\n",
"    \"萬里長城\" -> \"완리장청\"\n",
"    \"抚顺\"     -> \"푸순\"\n",
"    \"辽宁\"     -> \"랴오닝\"\n",
"\n",
"    # Official examples from korean.go.kr\n",
"    \"郭廣昌\"     -> \"궈광창\"\n",
"    \"劉鶴\"       -> \"류허\"\n",
"    \"屠呦呦\"     -> \"투유유\"\n",
"    \"許家印\"     -> \"쉬자인\"\n",
"    \"王健林\"     -> \"왕젠린\"\n",
"    \"廬志强\"     -> \"루즈창\"\n",
"    \"馬化騰\"     -> \"마화텅\"\n",
"    \"努爾白克力\" -> \"누얼바이커리\"\n",
"    \"金立群\"     -> \"진리췬\"\n",
"    \"曹國偉\"     -> \"차오궈웨이\"\n",
"    \"李河君\"     -> \"리허쥔\"\n",
"    \"游客\"       -> \"유커\"\n",
"    \"雷軍\"       -> \"레이쥔\"\n",
"    \"李保樟\"     -> \"리바오장\"\n",
"    \"古天樂\"     -> \"구톈러\"\n",
"    \"鄧森悅\"     -> \"덩썬웨\"\n",
"    \"馮珊珊\"     -> \"펑산산\"\n",
"    \"馬雲\"       -> \"마윈\"\n",
"    \"郭聲琨\"     -> \"궈성쿤\"\n",
"    \"芈昱廷\"     -> \"미위팅\"\n",
"    \"梁樂民\"     -> \"량러민\"\n",
"    \"谷開來\"     -> \"구카이라이\"\n",
"    \"易小準\"     -> \"이샤오준\"\n",
"    \"胡舒立\"     -> \"후수리\"\n",
"    \"丁薛祥\"     -> \"딩쉐샹\"\n",
"    \"蔡名照\"     -> \"차이밍자오\"\n",
"    \"博鰲\"       -> \"보아오\"\n",
"    \"趙無極\"     -> \"자오우지\"\n",
"    \"崔天凱\"     -> \"추이톈카이\"\n",
"    \"汪洋\"       -> \"왕양\"\n",
"    \"樓繼偉\"     -> \"러우지웨이\"\n",
"    \"常萬全\"     -> \"창완취안\"\n",
"    \"高虎城\"     -> \"가오후청\"\n",
"    \"楊燕勇\"     -> \"양옌융\"\n",
"    \"羅夏\"       -> \"뤄샤\"\n",
"    \"陸振洪\"     -> \"루전훙\"\n",
"    \"劉宇\"       -> \"류위\"\n",
"    \"儲夫佳\"     -> \"추푸자\"\n",
"    \"崔暁\"       -> \"추이샤오\"\n",
"    \"安旭\"       -> \"안쉬\"\n",
"    \"李帥\"       -> \"리솨이\"\n",
"    \"呂建剛\"     -> \"뤼젠강\"\n",
"    \"劉延東\"     -> \"류옌둥\"\n",
"    \"胡春華\"     -> \"후춘화\"\n",
"    \"孫政才\"     -> \"쑨정차이\"\n",
"    \"華春瑩\"     -> \"화춘잉\"\n",
"    \"趙樂際\"     -> \"자오러지\"\n",
"    \"孟建柱\"     -> \"멍젠주\"\n",
"    \"李源潮\"     -> \"리위안차오\"\n",
"    \"孫春蘭\"     -> \"쑨춘란\"\n",
"    \"李雲迪\"     -> \"리윈디\"\n",
"    \"郞朗\"       -> \"랑랑\"\n",
"    \"韓素音\"     -> \"한쑤인\"\n",
"    \"張高麗\"     -> \"장가오리\"\n",
"    \"房峰輝\"     -> \"팡펑후이\"\n",
"    \"張又俠\"     -> \"장유샤\"\n",
"    \"張陽\"       -> \"장양\"\n",
"    \"趙克石\"     -> \"자오커스\"\n",
"    \"馬曉天\"     -> \"마샤오톈\"\n",
"    \"王澍\"       -> \"왕수\"\n",
"    \"莫言\"       -> \"모옌\"\n",
"    \"胡績偉\"     -> \"후지웨이\"\n",
"    \"茅于軾\"     -> \"마오위스\"\n",
"    \"陳光誠\"     -> \"천광청\"\n",
"    \"梁振英\"     -> \"량전잉\"\n",
"    \"鄧建國\"     -> \"덩젠궈\"\n",
"    \"何祚庥\"     -> \"허쭤슈\"\n",
"    \"王軍霞\"     -> \"왕쥔샤\"\n",
"    \"劉宏宇\"     -> \"류훙위\"\n",
"    \"朱民\"       -> \"주민\"\n",
"    \"胡佳\"       -> \"후자\"\n",
"    \"義烏\"       -> \"이우\"\n",
"    \"艾青\"       -> \"아이칭\"\n",
"    \"楊伯江\"     -> \"양보장\"\n",
"    \"艾未未\"     -> \"아이웨이웨이\"\n",
"    \"周海嬰\"     -> \"저우하이잉\"\n",
"    \"焦建國\"     -> \"자오젠궈\"\n",
"    \"馬蔚華\"     -> \"마웨이화\"\n"]

theorem lines12_ok : Part true lang macros vars (str "transcribe") lines12 (str "test") := by
  apply piece_of
  · dsimp only [lines12]; repeat (first | exact .nil | apply Spells.cons)
  · decide +kernel

def lines13 : List String := [
"    \"郭敬明\"     -> \"궈징밍\"\n",
"    \"朱學勤\"     -> \"주쉐친\"\n",
"    \"徐紹史\"     -> \"쉬사오스\"\n",
"    \"謝旭人\"     -> \"셰쉬런\"\n",
"    \"賈宏聲\"     -> \"자훙성\"\n",
"    \"張鑫森\"     -> \"장신썬\"\n",
"    \"李彦宏\"     -> \"리옌훙\"\n",
"    \"劉曉波\"     -> \"류샤오보\"\n",
"    \"張業遂\"     -> \"장예쑤이\"\n",
"    \"李妮娜\"     -> \"리니나\"\n",
"    \"龐清\"       -> \"팡칭\"\n",
"    \"佟健\"       -> \"퉁젠\"\n",
"    \"周洋\"       -> \"저우양\"\n",
"    \"張會\"       -> \"장후이\"\n",
"    \"趙宏博\"     -> \"자오훙보\"\n",
"    \"孫琳琳\"     -> \"쑨린린\"\n",
"    \"申雪\"       -> \"선쉐\"\n",
"    \"王北星\"     -> \"왕베이싱\"\n",
"    \"王濛\"       -> \"왕멍\"\n",
"    \"王家瑞\"     -> \"왕자루이\"\n",
"    \"彭麗媛\"     -> \"펑리위안\"\n",
"    \"肖向前\"     -> \"샤오샹첸\"\n",
"    \"紹興\"       -> \"사오싱\"\n",
"    \"袁貴仁\"     -> \"위안구이런\"\n",
"    \"崔世安\"     -> \"추이스안\"\n",
"    \"李開復\"     -> \"리카이푸\"\n",
"    \"田原\"       -> \"톈위안\"\n",
"    \"卓琳\"       -> \"줘린\"\n",
"\n",
"    # Examples from @iceager\n",
"    \"吕燕\" -> \"뤼옌\"\n"]

theorem lines13_ok : Part true lang macros vars (str "test") lines13 (str "test") := by
  apply piece_of
  · dsimp only [lines13]; repeat (first | exact .nil | apply Spells.cons)
  · decide +kernel

/-- The lines of the file. -/
def lines : List String := head ++ (lines1 ++ (lines2 ++ (lines3 ++ (lines4 ++ (lines5 ++ (lines6 ++ (lines7 ++ (lines8 ++ (lines9 ++ (lines10 ++ (lines11 ++ (lines12 ++ (lines13)))))))))))))

/-- The file is a spec with checked rules. -/
theorem sound : Sound (text lines) lang := sound_of head_ok (lines1_ok.append (lines2_ok.append (lines3_ok.append (lines4_ok.append (lines5_ok.append (lines6_ok.append (lines7_ok.append (lines8_ok.append (lines9_ok.append (lines10_ok.append (lines11_ok.append (lines12_ok.append (lines13_ok))))))))))))) (by decide +kernel)

end Verif.Specs.Chi
