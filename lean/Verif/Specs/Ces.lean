import Verif.Proofs.Bundle

/-! specs/ces.hsl, generated by tools/gen_specs.py. -/

set_option Elab.async false

namespace Verif.Specs.Ces

open Hsl

/-- The language of the spec. -/
def lang : Language :=
  ⟨str "ces", (str "cs", str "ces"), str "Czech", str "체코어", str "Latn", []⟩

def macros : List (Bytes × Bytes) := [(str "@", str "<vowels>")]

def vars : List (Bytes × List Bytes) := [(str "vl", [str "c", str "C", str "f", str "H", str "k", str "p", str "s", str "S", str "t", str "T"]),
  (str "vowels", [str "a", str "e", str "i", str "o", str "u", str "y"])]

def keys : List (Rune × List Rune) := [(352, [353]),
  (356, [357]),
  (327, [328]),
  (268, [269]),
  (270, [271]),
  (344, [345]),
  (282, [283]),
  (381, [382])]

def kept : List Rune := [353, 357, 328, 269, 271, 345, 283, 382]

def head : List String := [
"lang:\n",
"    id      = \"ces\"\n",
"    codes   = \"cs\", \"ces\"\n",
"    english = \"Czech\"\n",
"    korean  = \"체코어\"\n",
"    script  = \"Latn\"\n",
"\n",
"config:\n",
"    author = \"Brian Jongseong Park <iceager@gmail.com>\"\n",
"    stage  = \"draft\"\n",
"\n",
"macros:\n",
"    \"@\" = \"<vowels>\"\n",
"\n",
"vars:\n",
"    \"vl\"     = \"c\", \"C\", \"f\", \"H\", \"k\", \"p\", \"s\", \"S\", \"t\", \"T\"\n",
"    \"vowels\" = \"a\", \"e\", \"i\", \"o\", \"u\", \"y\"\n",
"\n",
"normalize:\n",
"    \"š\" = \"Š\"\n",
"    \"ť\" = \"Ť\"\n",
"    \"ň\" = \"Ň\"\n",
"    \"č\" = \"Č\"\n",
"    \"ď\" = \"Ď\"\n",
"    \"ř\" = \"Ř\"\n",
"    \"ě\" = \"Ě\"\n",
"    \"ž\" = \"Ž\"\n",
"\n"]

theorem head_ok : ∃ xs, Reads [] (runes (text head)) xs (str "normalize") ∧ headOk lang macros vars keys kept xs = true := by
  apply piece_of
  · dsimp only [head]; repeat (first | exact .nil | apply Spells.cons)
  · decide +kernel

def lines1 : List String := [
"rewrite:\n",
"    \"č\"          -> \"C\"\n",
"    \"ď\"          -> \"D\"\n",
"    \"ě\"          -> \"je\"\n",
"    \"ň\"          -> \"N\"\n",
"    \"ř\"          -> \"rZ\"\n",
"    \"š\"          -> \"S\"\n",
"    \"ť\"          -> \"T\"\n",
"    \"ž\"          -> \"Z\"\n",
"    \"w\"          -> \"v\"\n",
"    \"b{<vl>}\"    -> \"p\"\n"]

theorem lines1_ok : Part true lang macros vars (str "normalize") lines1 (str "rewrite") := by
  apply piece_of
  · dsimp only [lines1]; repeat (first | exact .nil | apply Spells.cons)
  · decide +kernel

def lines2 : List String := [
"    \"b$\"         -> \"p\"\n",
"    \"d{<vl>}\"    -> \"t\"\n",
"    \"d$\"         -> \"t\"\n",
"    \"D{<vl>}\"    -> \"T\"\n",
"    \"D$\"         -> \"T\"\n",
"    \"g{<vl>}\"    -> \"k\"\n",
"    \"g$\"         -> \"k\"\n",
"    \"v{<vl>}\"    -> \"f\"\n",
"    \"v$\"         -> \"f\"\n",
"    \"z{<vl>}\"    -> \"s\"\n"]

theorem lines2_ok : Part true lang macros vars (str "rewrite") lines2 (str "rewrite") := by
  apply piece_of
  · dsimp only [lines2]; repeat (first | exact .nil | apply Spells.cons)
  · decide +kernel

def lines3 : List String := [
"    \"z$\"         -> \"s\"\n",
"    \"Z{<vl>}\"    -> \"S\"\n",
"    \"Z$\"         -> \"S\"\n",
"    \"D{@}\"       -> \"dJ\"\n",
"    \"D\"          -> \"di\"\n",
"    \"N{@}\"       -> \"nJ\"\n",
"    \"N\"          -> \"n\"\n",
"    \"S{@}\"       -> \"sJ\"\n",
"    \"S$\"         -> \"si\"\n",
"    \"S\"          -> \"sJu\"\n"]

theorem lines3_ok : Part true lang macros vars (str "rewrite") lines3 (str "rewrite") := by
  apply piece_of
  · dsimp only [lines3]; repeat (first | exact .nil | apply Spells.cons)
  · decide +kernel

def lines4 : List String := [
"    \"T{@}\"       -> \"tJ\"\n",
"    \"T\"          -> \"ti\"\n",
"    \"Z{@}\"       -> \"z\"\n",
"    \"Z\"          -> \"zu\"\n",
"    \"xx\"         -> \"x\"\n",
"    \"^x\"         -> \"z\"\n",
"    \"x\"          -> \"ks\"\n",
"    \"qu\"         -> \"kv\"\n",
"    \"q\"          -> \"k\"\n",
"    \"ch\"         -> \"H\"\n"]

theorem lines4_ok : Part true lang macros vars (str "rewrite") lines4 (str "rewrite") := by
  apply piece_of
  · dsimp only [lines4]; repeat (first | exact .nil | apply Spells.cons)
  · decide +kernel

def lines5 : List String := [
"    \"aa\"         -> \"a\"\n",
"    \"bb\"         -> \"b\"\n",
"    \"dd\"         -> \"d\"\n",
"    \"ee\"         -> \"e\"\n",
"    \"ff\"         -> \"f\"\n",
"    \"gg\"         -> \"g\"\n",
"    \"hh\"         -> \"h\"\n",
"    \"jj\"         -> \"ij\"\n",
"    \"ii\"         -> \"i\"\n",
"    \"^j{@}\"      -> \"J\"\n"]

theorem lines5_ok : Part true lang macros vars (str "rewrite") lines5 (str "rewrite") := by
  apply piece_of
  · dsimp only [lines5]; repeat (first | exact .nil | apply Spells.cons)
  · decide +kernel

def lines6 : List String := [
"    \"{@}j{@}\"    -> \"J\"\n",
"    \"sje\"        -> \"sJe\"\n",
"    \"je\"         -> \"e\"\n",
"    \"{n|d|s|t}j\" -> \"J\"\n",
"    \"j\"          -> \"i\"\n",
"    \"ij\"         -> \"i\"\n",
"    \"yj\"         -> \"y\"\n",
"    \"kk\"         -> \"k\"\n",
"    \"ll\"         -> \"l\"\n",
"    \"{@}mm{@}\"   -> \"m,m\"\n"]

theorem lines6_ok : Part true lang macros vars (str "rewrite") lines6 (str "rewrite") := by
  apply piece_of
  · dsimp only [lines6]; repeat (first | exact .nil | apply Spells.cons)
  · decide +kernel

def lines7 : List String := [
"    \"mm\"         -> \"m\"\n",
"    \"{@}nn{@}\"   -> \"n,n\"\n",
"    \"nn\"         -> \"n\"\n",
"    \"oo\"         -> \"o\"\n",
"    \"pp\"         -> \"p\"\n",
"    \"rr\"         -> \"r\"\n",
"    \"ss\"         -> \"s\"\n",
"    \"tt\"         -> \"t\"\n",
"    \"uu\"         -> \"u\"\n",
"    \"vv\"         -> \"v\"\n"]

theorem lines7_ok : Part true lang macros vars (str "rewrite") lines7 (str "rewrite") := by
  apply piece_of
  · dsimp only [lines7]; repeat (first | exact .nil | apply Spells.cons)
  · decide +kernel

def lines8 : List String := [
"    \"^y{@}\"      -> \"J\"\n",
"    \"yy\"         -> \"y\"\n",
"    \"y\"          -> \"i\"\n",
"    \"zz\"         -> \"z\"\n",
"    \"{l|m|n}j$\"  -> \"\"\n",
"    \"je\"         -> \"e\"\n",
"    \"^l\"         -> \"l;\"\n",
"    \"^m\"         -> \"m;\"\n",
"    \"^n\"         -> \"n;\"\n",
"    \"l$\"         -> \"l,\"\n"]

theorem lines8_ok : Part true lang macros vars (str "rewrite") lines8 (str "rewrite") := by
  apply piece_of
  · dsimp only [lines8]; repeat (first | exact .nil | apply Spells.cons)
  · decide +kernel

def lines9 : List String := [
"    \"m$\"         -> \"m,\"\n",
"    \"n$\"         -> \"n,\"\n",
"    \"l{@|m,|n,}\" -> \"l;\"\n",
"    \"{,}l\"       -> \"l;\"\n",
"    \"m{@|r}\"     -> \"m;\"\n",
"    \"n{@|J}\"     -> \"n;\"\n",
"    \"l\"          -> \"l,\"\n",
"    \"m\"          -> \"m,\"\n",
"    \"n\"          -> \"n,\"\n",
"    \",,\"         -> \",\"\n"]

theorem lines9_ok : Part true lang macros vars (str "rewrite") lines9 (str "rewrite") := by
  apply piece_of
  · dsimp only [lines9]; repeat (first | exact .nil | apply Spells.cons)
  · decide +kernel

def lines10 : List String := [
"    \",;\"         -> \"\"\n",
"    \",l,\"        -> \"l,\"\n",
"    \",m,\"        -> \"m,\"\n",
"    \",n,\"        -> \"n,\"\n",
"    \"l{m;|n;}\"   -> \"l,\"\n",
"    \";\"          -> \"\"\n",
"    \"{@}k{<vl>}\" -> \"k,\"\n",
"    \"{@}p{<vl>}\" -> \"p,\"\n",
"\n"]

theorem lines10_ok : Part true lang macros vars (str "rewrite") lines10 (str "rewrite") := by
  apply piece_of
  · dsimp only [lines10]; repeat (first | exact .nil | apply Spells.cons)
  · decide +kernel

def lines11 : List String := [
"transcribe:\n",
"    \"C{@}\" -> \"ㅊ\"\n",
"    \"C\"    -> \"ㅊㅣ\"\n",
"    \"b\"    -> \"ㅂ\"\n",
"    \"c\"    -> \"ㅊ\"\n",
"    \"d\"    -> \"ㄷ\"\n",
"    \"f\"    -> \"ㅍ\"\n",
"    \"g\"    -> \"ㄱ\"\n",
"    \"h\"    -> \"ㅎ\"\n",
"    \"H\"    -> \"ㅎ\"\n",
"    \"k,\"   -> \"-ㄱ\"\n"]

theorem lines11_ok : Part true lang macros vars (str "rewrite") lines11 (str "transcribe") := by
  apply piece_of
  · dsimp only [lines11]; repeat (first | exact .nil | apply Spells.cons)
  · decide +kernel

def lines12 : List String := [
"    \"k\"    -> \"ㅋ\"\n",
"    \"^l\"   -> \"ㄹ\"\n",
"    \"{,}l\" -> \"ㄹ\"\n",
"    \"l,\"   -> \"-ㄹ\"\n",
"    \"l\"    -> \"-ㄹㄹ\"\n",
"    \"m,\"   -> \"-ㅁ\"\n",
"    \"m\"    -> \"ㅁ\"\n",
"    \"n,\"   -> \"-ㄴ\"\n",
"    \"n\"    -> \"ㄴ\"\n",
"    \"p,\"   -> \"-ㅂ\"\n"]

theorem lines12_ok : Part true lang macros vars (str "transcribe") lines12 (str "transcribe") := by
  apply piece_of
  · dsimp only [lines12]; repeat (first | exact .nil | apply Spells.cons)
  · decide +kernel

def lines13 : List String := [
"    \"p\"    -> \"ㅍ\"\n",
"    \"r\"    -> \"ㄹ\"\n",
"    \"s\"    -> \"ㅅ\"\n",
"    \"t\"    -> \"ㅌ\"\n",
"    \"v\"    -> \"ㅂ\"\n",
"    \"z\"    -> \"ㅈ\"\n",
"    \"Ja\"   -> \"ㅑ\"\n",
"    \"Je\"   -> \"ㅖ\"\n",
"    \"Ji\"   -> \"ㅣ\"\n",
"    \"Jo\"   -> \"ㅛ\"\n"]

theorem lines13_ok : Part true lang macros vars (str "transcribe") lines13 (str "transcribe") := by
  apply piece_of
  · dsimp only [lines13]; repeat (first | exact .nil | apply Spells.cons)
  · decide +kernel

def lines14 : List String := [
"    \"Ju\"   -> \"ㅠ\"\n",
"    \"a\"    -> \"ㅏ\"\n",
"    \"e\"    -> \"ㅔ\"\n",
"    \"i\"    -> \"ㅣ\"\n",
"    \"o\"    -> \"ㅗ\"\n",
"    \"u\"    -> \"ㅜ\"\n",
"\n"]

theorem lines14_ok : Part true lang macros vars (str "transcribe") lines14 (str "transcribe") := by
  apply piece_of
  · dsimp only [lines14]; repeat (first | exact .nil | apply Spells.cons)
  · decide +kernel

def lines15 : List String := [
"test:\n",
"    \"kachna\"    -> \"카흐나\"\n",
"    \"kulečnik\"  -> \"쿨레치니크\"\n",
"    \"šaty\"      -> \"샤티\"\n",
"    \"dech\"      -> \"데흐\"\n",
"    \"hořký\"     -> \"호르슈키\"\n",
"    \"zámek\"     -> \"자메크\"\n",
"    \"nemocnice\" -> \"네모츠니체\"\n",
"    \"ledvina\"   -> \"레드비나\"\n",
"    \"quasi\"     -> \"크바시\"\n",
"    \"nemoc\"     -> \"네모츠\"\n",
"    \"matka\"     -> \"마트카\"\n",
"    \"chlapec\"   -> \"흘라페츠\"\n",
"    \"šest\"      -> \"셰스트\"\n",
"    \"mrak\"      -> \"므라크\"\n",
"    \"nikdy\"     -> \"니크디\"\n",
"    \"pozdní\"    -> \"포즈드니\"\n",
"    \"úrok\"      -> \"우로크\"\n",
"    \"kouř\"      -> \"코우르시\"\n",
"    \"koroptev\"  -> \"코롭테프\"\n",
"    \"oběť\"      -> \"오베티\"\n",
"    \"jaro\"      -> \"야로\"\n",
"    \"loďka\"     -> \"로티카\"\n",
"    \"humr\"      -> \"후므르\"\n",
"    \"bolest\"    -> \"볼레스트\"\n",
"    \"hmyz\"      -> \"흐미스\"\n",
"    \"barva\"     -> \"바르바\"\n",
"    \"pokoj\"     -> \"포코이\"\n",
"    \"míč\"       -> \"미치\"\n",
"    \"léto\"      -> \"레토\"\n",
"    \"jazýk\"     -> \"야지크\"\n",
"    \"hadr\"      -> \"하드르\"\n",
"    \"balík\"     -> \"발리크\"\n",
"    \"námořník\"  -> \"나모르주니크\"\n",
"    \"kov\"       -> \"코프\"\n",
"    \"tělo\"      -> \"텔로\"\n",
"    \"věk\"       -> \"베크\"\n",
"    \"žvěřina\"   -> \"주베르지나\"\n",
"    \"mozek\"     -> \"모제크\"\n",
"    \"Brož\"      -> \"브로시\"\n",
"    \"hruď\"      -> \"흐루티\"\n",
"    \"xerox\"     -> \"제록스\"\n",
"    \"prach\"     -> \"프라흐\"\n",
"    \"choditi\"   -> \"호디티\"\n",
"    \"postel\"    -> \"포스텔\"\n",
"    \"harmonika\" -> \"하르모니카\"\n",
"    \"nos\"       -> \"노스\"\n",
"    \"dobrý\"     -> \"도브리\"\n",
"    \"padák\"     -> \"파다크\"\n",
"    \"šplhati\"   -> \"슈플하티\"\n",
"    \"máslo\"     -> \"마슬로\"\n",
"    \"kino\"      -> \"키노\"\n",
"    \"čapek\"     -> \"차페크\"\n",
"    \"saxofón\"   -> \"삭소폰\"\n",
"    \"bez\"       -> \"베스\"\n",
"    \"Praha\"     -> \"프라하\"\n",
"    \"buben\"     -> \"부벤\"\n",
"    \"nervózni\"  -> \"네르보즈니\"\n",
"    \"míra\"      -> \"미라\"\n",
"    \"podzim\"    -> \"포드짐\"\n",
"    \"řeka\"      -> \"르제카\"\n",
"    \"šternberk\" -> \"슈테른베르크\"\n",
"    \"ďábel\"     -> \"댜벨\"\n",
"    \"gramofon\"  -> \"그라모폰\"\n",
"    \"knoflík\"   -> \"크노플리크\"\n",
"    \"myš\"       -> \"미시\"\n",
"    \"kolo\"      -> \"콜로\"\n",
"    \"sáňky\"     -> \"산키\"\n",
"    \"štěstí\"    -> \"슈테스티\"\n",
"    \"bůh\"       -> \"부흐\"\n",
"    \"ruka\"      -> \"루카\"\n",
"    \"strop\"     -> \"스트로프\"\n",
"    \"puška\"     -> \"푸슈카\"\n",
"    \"vysoký\"    -> \"비소키\"\n",
"    \"divadlo\"   -> \"디바들로\"\n",
"    \"knihovna\"  -> \"크니호브나\"\n",
"    \"fík\"       -> \"피크\"\n",
"    \"obchod\"    -> \"옵호트\"\n",
"    \"tam\"       -> \"탐\"\n",
"    \"Plzeň\"     -> \"플젠\"\n",
"    \"led\"       -> \"레트\"\n",
"    \"líný\"      -> \"리니\"\n",
"    \"jeřab\"     -> \"예르자프\"\n",
"    \"most\"      -> \"모스트\"\n",
"    \"lev\"       -> \"레프\"\n",
"    \"mír\"       -> \"미르\"\n",
"    \"žižka\"     -> \"지슈카\"\n",
"    \"obec\"      -> \"오베츠\"\n",
"    \"komár\"     -> \"코마르\"\n",
"    \"cigareta\"  -> \"치가레타\"\n",
"    \"němý\"      -> \"네미\"\n",
"    \"dům\"       -> \"둠\"\n",
"    \"odpadky\"   -> \"오트파트키\"\n",
"    \"noha\"      -> \"노하\"\n",
"    \"koš\"       -> \"코시\"\n",
"    \"podmínka\"  -> \"포드민카\"\n",
"    \"sedlo\"     -> \"세들로\"\n",
"\n"]

theorem lines15_ok : Part true lang macros vars (str "transcribe") lines15 (str "test") := by
  apply piece_of
  · dsimp only [lines15]; repeat (first | exact .nil | apply Spells.cons)
  · decide +kernel

/-- The lines of the file. -/
def lines : List String := head ++ (lines1 ++ (lines2 ++ (lines3 ++ (lines4 ++ (lines5 ++ (lines6 ++ (lines7 ++ (lines8 ++ (lines9 ++ (lines10 ++ (lines11 ++ (lines12 ++ (lines13 ++ (lines14 ++ (lines15)))))))))))))))

/-- The file is a spec with checked rules. -/
theorem sound : Sound (text lines) lang := sound_of head_ok (lines1_ok.append (lines2_ok.append (lines3_ok.append (lines4_ok.append (lines5_ok.append (lines6_ok.append (lines7_ok.append (lines8_ok.append (lines9_ok.append (lines10_ok.append (lines11_ok.append (lines12_ok.append (lines13_ok.append (lines14_ok.append (lines15_ok))))))))))))))) (by decide +kernel)

end Verif.Specs.Ces
