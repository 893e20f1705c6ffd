import Verif.Proofs.Bundle

/-! specs/kat-1.hsl, generated by tools/gen_specs.py. -/

set_option Elab.async false

namespace Verif.Specs.Kat1

open Hsl

/-- The language of the spec. -/
def lang : Language :=
  ⟨str "kat-1", (str "ka", str "kat"), str "Georgian (1st scheme)", str "조지아어(제1안)", str "Geor", []⟩

def macros : List (Bytes × Bytes) := [(str "@", str "<vowels>")]

def vars : List (Bytes × List Bytes) := [(str "cs", [str "ბ", str "გ", str "დ", str "ვ", str "ზ", str "თ", str "კ", str "ლ", str "მ", str "ნ", str "პ", str "ჟ", str "რ", str "ს", str "ტ", str "ფ", str "ქ", str "ღ", str "ყ", str "შ", str "ჩ", str "ც", str "ძ", str "წ", str "ჭ", str "ხ", str "ჯ", str "ჰ", str "ჶ"]),
  (str "ob", [str "ბ", str "გ", str "დ", str "ვ", str "ზ", str "თ", str "კ", str "პ", str "ჟ", str "ს", str "ტ", str "ფ", str "ქ", str "ღ", str "ყ", str "შ", str "ჩ", str "ც", str "ძ", str "წ", str "ჭ", str "ხ", str "ჯ", str "ჰ"]),
  (str "vl", [str "თ", str "კ", str "პ", str "ტ", str "ფ", str "ქ", str "ყ", str "ჩ", str "ც", str "წ", str "ჭ"]),
  (str "vowels", [str "ა", str "ე", str "ი", str "ო", str "უ"])]

def keys : List (Rune × List Rune) := [(4257, [4305]), (11521, [4305]),
  (11520, [4304]), (4256, [4304]),
  (4259, [4307]), (11523, [4307]),
  (11522, [4306]), (4258, [4306]),
  (11525, [4309]), (4261, [4309]),
  (11524, [4308]), (4260, [4308]),
  (11527, [4311]), (4263, [4311]),
  (4262, [4310]), (11526, [4310]),
  (4265, [4313]), (11529, [4313]),
  (11528, [4312]), (4264, [4312]),
  (4267, [4315]), (11531, [4315]),
  (11530, [4314]), (4266, [4314]),
  (11532, [4316]), (4268, [4316]),
  (11535, [4319]), (4271, [4319]),
  (4270, [4318]), (11534, [4318]),
  (4273, [4321]), (11537, [4321]),
  (11536, [4320]), (4272, [4320]),
  (11533, [4323]), (4269, [4323]),
  (11538, [4322]), (4274, [4322]),
  (11541, [4325]), (4277, [4325]),
  (11540, [4324]), (4276, [4324]),
  (11543, [4327]), (4279, [4327]),
  (4278, [4326]), (11542, [4326]),
  (4281, [4329]), (11545, [4329]),
  (11544, [4328]), (4280, [4328]),
  (4283, [4331]), (11547, [4331]),
  (11546, [4330]), (4282, [4330]),
  (11549, [4333]), (4285, [4333]),
  (11548, [4332]), (4284, [4332]),
  (11551, [4335]), (4287, [4335]),
  (4286, [4334]), (11550, [4334]),
  (4289, [4337]), (11553, [4337]),
  (11552, [4336]), (4288, [4336]),
  (4291, [4339]), (11555, [4339]),
  (11554, [4338]), (4290, [4338]),
  (11557, [4341]), (4293, [4341]),
  (11556, [4340]), (4292, [4340])]

def kept : List Rune := [4305, 4304, 4307, 4306, 4309, 4308, 4311, 4310, 4313, 4312, 4315, 4314, 4316, 4319, 4318, 4321, 4320, 4323, 4322, 4325, 4324, 4327, 4326, 4329, 4328, 4331, 4330, 4333, 4332, 4335, 4334, 4337, 4336, 4339, 4338, 4341, 4340]

def head : List String := [
"lang:\n",
"    id      = \"kat-1\"\n",
"    codes   = \"ka\", \"kat\"\n",
"    english = \"Georgian (1st scheme)\"\n",
"    korean  = \"조지아어(제1안)\"\n",
"    script  = \"Geor\"\n",
"\n",
"config:\n",
"    author = \"Brian Jongseong Park <iceager@gmail.com>\"\n",
"    stage  = \"draft\"\n",
"\n",
"macros:\n",
"    \"@\" = \"<vowels>\"\n",
"\n",
"vars:\n",
"    \"cs\"     = \"ბ\", \"გ\", \"დ\", \"ვ\", \"ზ\", \"თ\", \"კ\", \"ლ\", \"მ\", \"ნ\", \"პ\", \"ჟ\", \"რ\", \"ს\", \"ტ\", \"ფ\", \"ქ\", \"ღ\", \"ყ\", \"შ\", \"ჩ\", \"ც\", \"ძ\", \"წ\", \"ჭ\", \"ხ\", \"ჯ\", \"ჰ\", \"ჶ\"\n",
"    \"ob\"     = \"ბ\", \"გ\", \"დ\", \"ვ\", \"ზ\", \"თ\", \"კ\", \"პ\", \"ჟ\", \"ს\", \"ტ\", \"ფ\", \"ქ\", \"ღ\", \"ყ\", \"შ\", \"ჩ\", \"ც\", \"ძ\", \"წ\", \"ჭ\", \"ხ\", \"ჯ\", \"ჰ\"\n",
"    \"vl\"     = \"თ\", \"კ\", \"პ\", \"ტ\", \"ფ\", \"ქ\", \"ყ\", \"ჩ\", \"ც\", \"წ\", \"ჭ\"\n",
"    \"vowels\" = \"ა\", \"ე\", \"ი\", \"ო\", \"უ\"\n",
"\n",
"normalize:\n",
"    \"ბ\" = \"Ⴁ\", \"ⴁ\"\n",
"    \"ა\" = \"ⴀ\", \"Ⴀ\"\n",
"    \"დ\" = \"Ⴃ\", \"ⴃ\"\n",
"    \"გ\" = \"ⴂ\", \"Ⴂ\"\n",
"    \"ვ\" = \"ⴅ\", \"Ⴅ\"\n",
"    \"ე\" = \"ⴄ\", \"Ⴄ\"\n",
"    \"თ\" = \"ⴇ\", \"Ⴇ\"\n",
"    \"ზ\" = \"Ⴆ\", \"ⴆ\"\n",
"    \"კ\" = \"Ⴉ\", \"ⴉ\"\n",
"    \"ი\" = \"ⴈ\", \"Ⴈ\"\n",
"    \"მ\" = \"Ⴋ\", \"ⴋ\"\n",
"    \"ლ\" = \"ⴊ\", \"Ⴊ\"\n",
"    \"ნ\" = \"ⴌ\", \"Ⴌ\"\n",
"    \"ჟ\" = \"ⴏ\", \"Ⴏ\"\n",
"    \"პ\" = \"Ⴎ\", \"ⴎ\"\n",
"    \"ს\" = \"Ⴑ\", \"ⴑ\"\n",
"    \"რ\" = \"ⴐ\", \"Ⴐ\"\n",
"    \"უ\" = \"ⴍ\", \"Ⴍ\"\n",
"    \"ტ\" = \"ⴒ\", \"Ⴒ\"\n",
"    \"ქ\" = \"ⴕ\", \"Ⴕ\"\n",
"    \"ფ\" = \"ⴔ\", \"Ⴔ\"\n",
"    \"ყ\" = \"ⴗ\", \"Ⴗ\"\n",
"    \"ღ\" = \"Ⴖ\", \"ⴖ\"\n",
"    \"ჩ\" = \"Ⴙ\", \"ⴙ\"\n",
"    \"შ\" = \"ⴘ\", \"Ⴘ\"\n",
"    \"ძ\" = \"Ⴛ\", \"ⴛ\"\n",
"    \"ც\" = \"ⴚ\", \"Ⴚ\"\n",
"    \"ჭ\" = \"ⴝ\", \"Ⴝ\"\n",
"    \"წ\" = \"ⴜ\", \"Ⴜ\"\n",
"    \"ჯ\" = \"ⴟ\", \"Ⴟ\"\n",
"    \"ხ\" = \"Ⴞ\", \"ⴞ\"\n",
"    \"ჱ\" = \"Ⴡ\", \"ⴡ\"\n",
"    \"ჰ\" = \"ⴠ\", \"Ⴠ\"\n",
"    \"ჳ\" = \"Ⴣ\", \"ⴣ\"\n",
"    \"ჲ\" = \"ⴢ\", \"Ⴢ\"\n",
"    \"ჵ\" = \"ⴥ\", \"Ⴥ\"\n",
"    \"ჴ\" = \"ⴤ\", \"Ⴤ\"\n",
"\n"]

theorem head_ok : ∃ xs, Reads [] (runes (text head)) xs (str "normalize") ∧ headOk lang macros vars keys kept xs = true := by
  apply piece_of
  · dsimp only [head]; repeat (first | exact .nil | apply Spells.cons)
  · decide +kernel

def lines1 : List String := [
"rewrite:\n",
"    \"ჱ\"          -> \"ეჲ\"\n",
"    \"ჲ\"          -> \"ი\"\n",
"    \"უჳ\"         -> \"უ\"\n",
"    \"ჳ\"          -> \"უ\"\n",
"    \"ჴ\"          -> \"ხ\"\n",
"    \"ჵ\"          -> \"ო\"\n",
"    \"{@}ვ{<vl>}\" -> \"ჶ\"\n",
"    \"ვ$\"         -> \"ჶ\"\n",
"    \"ბბ\"         -> \"ბ\"\n",
"    \"გგ\"         -> \"გ\"\n"]

theorem lines1_ok : Part true lang macros vars (str "normalize") lines1 (str "rewrite") := by
  apply piece_of
  · dsimp only [lines1]; repeat (first | exact .nil | apply Spells.cons)
  · decide +kernel

def lines2 : List String := [
"    \"დდ\"         -> \"დ\"\n",
"    \"ვვ\"         -> \"ვ\"\n",
"    \"ზზ\"         -> \"ზ\"\n",
"    \"თთ\"         -> \"თ\"\n",
"    \"კკ\"         -> \"კ\"\n",
"    \"ლლ\"         -> \"ლ\"\n",
"    \"მმ\"         -> \"მ,მ\"\n",
"    \"ნნ\"         -> \"ნ,ნ\"\n",
"    \"პპ\"         -> \"პ\"\n",
"    \"ჟჟ\"         -> \"ჟ\"\n"]

theorem lines2_ok : Part true lang macros vars (str "rewrite") lines2 (str "rewrite") := by
  apply piece_of
  · dsimp only [lines2]; repeat (first | exact .nil | apply Spells.cons)
  · decide +kernel

def lines3 : List String := [
"    \"რრ\"         -> \"რ\"\n",
"    \"სს\"         -> \"ს\"\n",
"    \"ტტ\"         -> \"ტ\"\n",
"    \"ფფ\"         -> \"ფ\"\n",
"    \"ქქ\"         -> \"ქ\"\n",
"    \"ღღ\"         -> \"ღ\"\n",
"    \"ყყ\"         -> \"ყ\"\n",
"    \"შშ\"         -> \"შ\"\n",
"    \"ხხ\"         -> \"ხ\"\n",
"    \"ჰჰ\"         -> \"ჰ\"\n"]

theorem lines3_ok : Part true lang macros vars (str "rewrite") lines3 (str "rewrite") := by
  apply piece_of
  · dsimp only [lines3]; repeat (first | exact .nil | apply Spells.cons)
  · decide +kernel

def lines4 : List String := [
"    \"დ{ძ|ჯ}\"     -> \"\"\n",
"    \"თ{ჩ|ც}\"     -> \"\"\n",
"    \"ტ{წ|ჭ}\"     -> \"\"\n",
"    \"დჟ\"         -> \"ჯ\"\n",
"    \"თშ\"         -> \"ჩ\"\n",
"    \"ტშ\"         -> \"ჭ\"\n",
"    \"დზ\"         -> \"ძ\"\n",
"    \"თს\"         -> \"ც\"\n",
"    \"ტს\"         -> \"წ\"\n",
"    \"ჟ{<cs>}\"    -> \"ჟუ\"\n"]

theorem lines4_ok : Part true lang macros vars (str "rewrite") lines4 (str "rewrite") := by
  apply piece_of
  · dsimp only [lines4]; repeat (first | exact .nil | apply Spells.cons)
  · decide +kernel

def lines5 : List String := [
"    \"ჟ$\"         -> \"ჟუ\"\n",
"    \"შ{<cs>}\"    -> \"შუ\"\n",
"    \"შ$\"         -> \"ში\"\n",
"    \"ჩ{ვ}\"       -> \"ჩუ\"\n",
"    \"ჩ{<cs>}\"    -> \"ჩი\"\n",
"    \"ჩ$\"         -> \"ჩი\"\n",
"    \"ძ{ვ}\"       -> \"ძუ\"\n",
"    \"ძ{<cs>}\"    -> \"ძი\"\n",
"    \"ძ$\"         -> \"ძი\"\n",
"    \"ჭ{ვ}\"       -> \"ჭუ\"\n"]

theorem lines5_ok : Part true lang macros vars (str "rewrite") lines5 (str "rewrite") := by
  apply piece_of
  · dsimp only [lines5]; repeat (first | exact .nil | apply Spells.cons)
  · decide +kernel

def lines6 : List String := [
"    \"ჭ{<cs>}\"    -> \"ჭი\"\n",
"    \"ჭ$\"         -> \"ძი\"\n",
"    \"^ლ\"         -> \"ლ;\"\n",
"    \"^ნ\"         -> \"ნ;\"\n",
"    \"ლ$\"         -> \"ლ,\"\n",
"    \"მ$\"         -> \"მ,\"\n",
"    \"ნ$\"         -> \"ნ,\"\n",
"    \"ლ{@|მ,|ნ,}\" -> \"ლ;\"\n",
"    \"{,}ლ\"       -> \"ლ;\"\n",
"    \"მ{@}\"       -> \"მ;\"\n"]

theorem lines6_ok : Part true lang macros vars (str "rewrite") lines6 (str "rewrite") := by
  apply piece_of
  · dsimp only [lines6]; repeat (first | exact .nil | apply Spells.cons)
  · decide +kernel

def lines7 : List String := [
"    \"ნ{@}\"       -> \"ნ;\"\n",
"    \"ლ\"          -> \"ლ,\"\n",
"    \"მ\"          -> \"მ,\"\n",
"    \"ნ\"          -> \"ნ,\"\n",
"    \",,\"         -> \",\"\n",
"    \",;\"         -> \"\"\n",
"    \",ლ,\"        -> \"ლ,\"\n",
"    \",მ,\"        -> \"მ,\"\n",
"    \",ნ,\"        -> \"ნ,\"\n",
"    \"ლ{მნ}\"      -> \"ლ,\"\n"]

theorem lines7_ok : Part true lang macros vars (str "rewrite") lines7 (str "rewrite") := by
  apply piece_of
  · dsimp only [lines7]; repeat (first | exact .nil | apply Spells.cons)
  · decide +kernel

def lines8 : List String := [
"    \";\"          -> \"\"\n",
"    \"აა\"         -> \"ა\"\n",
"    \"ეე\"         -> \"ე\"\n",
"    \"იი\"         -> \"ი\"\n",
"    \"ოო\"         -> \"ო\"\n",
"    \"უუ\"         -> \"უ\"\n",
"\n"]

theorem lines8_ok : Part true lang macros vars (str "rewrite") lines8 (str "rewrite") := by
  apply piece_of
  · dsimp only [lines8]; repeat (first | exact .nil | apply Spells.cons)
  · decide +kernel

def lines9 : List String := [
"transcribe:\n",
"    \"ბ\"    -> \"ㅂ\"\n",
"    \"გ\"    -> \"ㄱ\"\n",
"    \"დ\"    -> \"ㄷ\"\n",
"    \"ვ\"    -> \"ㅂ\"\n",
"    \"ზ\"    -> \"ㅈ\"\n",
"    \"თ\"    -> \"ㅌ\"\n",
"    \"კ\"    -> \"ㅋ\"\n",
"    \"^ლ\"   -> \"ㄹ\"\n",
"    \"{,}ლ\" -> \"ㄹ\"\n",
"    \"ლ,\"   -> \"-ㄹ\"\n"]

theorem lines9_ok : Part true lang macros vars (str "rewrite") lines9 (str "transcribe") := by
  apply piece_of
  · dsimp only [lines9]; repeat (first | exact .nil | apply Spells.cons)
  · decide +kernel

def lines10 : List String := [
"    \"ლ\"    -> \"-ㄹㄹ\"\n",
"    \"მ,\"   -> \"-ㅁ\"\n",
"    \"მ\"    -> \"ㅁ\"\n",
"    \"ნ,\"   -> \"-ㄴ\"\n",
"    \"ნ\"    -> \"ㄴ\"\n",
"    \"პ\"    -> \"ㅍ\"\n",
"    \"ჟ\"    -> \"ㅈ\"\n",
"    \"რ\"    -> \"ㄹ\"\n",
"    \"ს\"    -> \"ㅅ\"\n",
"    \"ტ\"    -> \"ㅌ\"\n"]

theorem lines10_ok : Part true lang macros vars (str "transcribe") lines10 (str "transcribe") := by
  apply piece_of
  · dsimp only [lines10]; repeat (first | exact .nil | apply Spells.cons)
  · decide +kernel

def lines11 : List String := [
"    \"ფ\"    -> \"ㅍ\"\n",
"    \"ქ\"    -> \"ㅋ\"\n",
"    \"ღ\"    -> \"ㄱ\"\n",
"    \"ყ\"    -> \"ㅋ\"\n",
"    \"ჩ\"    -> \"ㅊ\"\n",
"    \"ც\"    -> \"ㅊ\"\n",
"    \"ძ\"    -> \"ㅈ\"\n",
"    \"წ\"    -> \"ㅊ\"\n",
"    \"ჭ\"    -> \"ㅊ\"\n",
"    \"ხ\"    -> \"ㅎ\"\n"]

theorem lines11_ok : Part true lang macros vars (str "transcribe") lines11 (str "transcribe") := by
  apply piece_of
  · dsimp only [lines11]; repeat (first | exact .nil | apply Spells.cons)
  · decide +kernel

def lines12 : List String := [
"    \"ჯ\"    -> \"ㅈ\"\n",
"    \"ჰ\"    -> \"ㅎ\"\n",
"    \"ჶ\"    -> \"ㅍ\"\n",
"    \"ჸ\"    -> \"ㅇ\"\n",
"    \"შა\"   -> \"ㅅㅑ\"\n",
"    \"შე\"   -> \"ㅅㅖ\"\n",
"    \"ში\"   -> \"ㅅㅣ\"\n",
"    \"შო\"   -> \"ㅅㅛ\"\n",
"    \"შუ\"   -> \"ㅅㅠ\"\n",
"    \"შჷ\"   -> \"ㅅㅕ\"\n"]

theorem lines12_ok : Part true lang macros vars (str "transcribe") lines12 (str "transcribe") := by
  apply piece_of
  · dsimp only [lines12]; repeat (first | exact .nil | apply Spells.cons)
  · decide +kernel

def lines13 : List String := [
"    \"ა\"    -> \"ㅏ\"\n",
"    \"ე\"    -> \"ㅔ\"\n",
"    \"ი\"    -> \"ㅣ\"\n",
"    \"ო\"    -> \"ㅗ\"\n",
"    \"უ\"    -> \"ㅜ\"\n",
"    \"ჷ\"    -> \"ㅓ\"\n",
"\n"]

theorem lines13_ok : Part true lang macros vars (str "transcribe") lines13 (str "transcribe") := by
  apply piece_of
  · dsimp only [lines13]; repeat (first | exact .nil | apply Spells.cons)
  · decide +kernel

def lines14 : List String := [
"test:\n",
"    \"ბურჯანაძე\"      -> \"부르자나제\"\n",
"    \"გრიგოლ\"         -> \"그리골\"\n",
"    \"არაყიშვილი\"     -> \"아라키슈빌리\"\n",
"    \"ნიკოლოზ\"        -> \"니콜로즈\"\n",
"    \"ზუგდიდი\"        -> \"주그디디\"\n",
"    \"ფოთი\"           -> \"포티\"\n",
"    \"რაფიელ\"         -> \"라피엘\"\n",
"    \"ჩიქობავა\"       -> \"치코바바\"\n",
"    \"მაყვალა\"        -> \"마크발라\"\n",
"    \"ლევან\"          -> \"레반\"\n",
"    \"სააკაშვილი\"     -> \"사카슈빌리\"\n",
"    \"თამარი\"         -> \"타마리\"\n",
"    \"ნიკა\"           -> \"니카\"\n",
"    \"სააკაძე\"        -> \"사카제\"\n",
"    \"ჟვანია\"         -> \"주바니아\"\n",
"    \"პეტრე\"          -> \"페트레\"\n",
"    \"კონსტანტინე\"    -> \"콘스탄티네\"\n",
"    \"მერაბ\"          -> \"메라브\"\n",
"    \"კიტა\"           -> \"키타\"\n",
"    \"გრიშაშვილი\"     -> \"그리샤슈빌리\"\n",
"    \"ქასრაშვილი\"     -> \"카스라슈빌리\"\n",
"    \"მანაგაძე\"       -> \"마나가제\"\n",
"    \"მტკვარი\"        -> \"음트크바리\"\n",
"    \"ელენე\"          -> \"엘레네\"\n",
"    \"ზურაბ\"          -> \"주라브\"\n",
"    \"გილაური\"        -> \"길라우리\"\n",
"    \"ჯვარი\"          -> \"즈바리\"\n",
"    \"არნოლდ\"         -> \"아르놀드\"\n",
"    \"გამსახურდია\"    -> \"감사후르디아\"\n",
"    \"ბათუმი\"         -> \"바투미\"\n",
"    \"ფარნავაზი\"      -> \"파르나바지\"\n",
"    \"ნინო\"           -> \"니노\"\n",
"    \"იოსებ\"          -> \"이오세브\"\n",
"    \"კახა\"           -> \"카하\"\n",
"    \"ავტო\"           -> \"아프토\"\n",
"    \"მითრიდატე\"      -> \"미트리다테\"\n",
"    \"კოსტავა\"        -> \"코스타바\"\n",
"    \"ერისთავი\"       -> \"에리스타비\"\n",
"    \"ფაჩულია\"        -> \"파출리아\"\n",
"    \"აბაშიძე\"        -> \"아바시제\"\n",
"    \"აზმაიფარაშვილი\" -> \"아즈마이파라슈빌리\"\n",
"    \"ჯავახიშვილი\"    -> \"자바히슈빌리\"\n",
"    \"არველაძე\"       -> \"아르벨라제\"\n",
"    \"ედუარდ\"         -> \"에두아르드\"\n",
"    \"კალანდაძე\"      -> \"칼란다제\"\n",
"    \"ზარზმა\"         -> \"자르즈마\"\n",
"    \"დავით\"          -> \"다비트\"\n",
"    \"ახვლედიანი\"     -> \"아흐블레디아니\"\n",
"    \"მთაწმინდა\"      -> \"음타츠민다\"\n",
"    \"მგალობლიშვილ\"   -> \"음갈로블리슈빌\"\n",
"    \"ზაზა\"           -> \"자자\"\n",
"    \"თათია\"          -> \"타티아\"\n",
"    \"მიხეილ\"         -> \"미헤일\"\n",
"    \"კალაძე\"         -> \"칼라제\"\n",
"    \"ბარათაშვილი\"    -> \"바라타슈빌리\"\n",
"    \"დიმიტრი\"        -> \"디미트리\"\n",
"    \"ალექსანდრე\"     -> \"알레크산드레\"\n",
"    \"ზვიად\"          -> \"즈비아드\"\n",
"    \"ჭილაშვილი\"      -> \"칠라슈빌리\"\n",
"    \"ანა\"            -> \"아나\"\n",
"    \"რუსთავი\"        -> \"루스타비\"\n",
"    \"ვახუშტი\"        -> \"바후슈티\"\n",
"    \"ღონღაძე\"        -> \"곤가제\"\n",
"    \"ამილახვარი\"     -> \"아밀라흐바리\"\n",
"    \"შევარდნაძე\"     -> \"셰바르드나제\"\n",
"    \"კახაბერ\"        -> \"카하베르\"\n",
"    \"ქუთაისი\"        -> \"쿠타이시\"\n",
"    \"გიორგი\"         -> \"기오르기\"\n",
"    \"ავალიშვილი\"     -> \"아발리슈빌리\"\n",
"    \"თბილისი\"        -> \"트빌리시\"\n",
"    \"შოთა\"           -> \"쇼타\"\n",
"    \"გორი\"           -> \"고리\"\n",
"\n"]

theorem lines14_ok : Part true lang macros vars (str "transcribe") lines14 (str "test") := by
  apply piece_of
  · dsimp only [lines14]; repeat (first | exact .nil | apply Spells.cons)
  · decide +kernel

/-- The lines of the file. -/
def lines : List String := head ++ (lines1 ++ (lines2 ++ (lines3 ++ (lines4 ++ (lines5 ++ (lines6 ++ (lines7 ++ (lines8 ++ (lines9 ++ (lines10 ++ (lines11 ++ (lines12 ++ (lines13 ++ (lines14))))))))))))))

/-- The file is a spec with checked rules. -/
theorem sound : Sound (text lines) lang := sound_of head_ok (lines1_ok.append (lines2_ok.append (lines3_ok.append (lines4_ok.append (lines5_ok.append (lines6_ok.append (lines7_ok.append (lines8_ok.append (lines9_ok.append (lines10_ok.append (lines11_ok.append (lines12_ok.append (lines13_ok.append (lines14_ok)))))))))))))) (by decide +kernel)

end Verif.Specs.Kat1
