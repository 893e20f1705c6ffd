import Verif.Proofs.Bundle

/-! specs/lit.hsl, generated by tools/gen_specs.py. -/

set_option Elab.async false

namespace Verif.Specs.Lit

open Hsl

/-- The language of the spec. -/
def lang : Language :=
  ⟨str "lit", (str "lt", str "lit"), str "Lithuanian", str "리투아니아어", str "Latn", []⟩

def macros : List (Bytes × Bytes) := [(str "@", str "<vowels>")]

def vars : List (Bytes × List Bytes) := [(str "cs", [str "b", str "c", str "C", str "d", str "D", str "f", str "g", str "h", str "H", str "k", str "l", str "m", str "n", str "N", str "p", str "r", str "s", str "S", str "t", str "v", str "X", str "z", str "Z"]),
  (str "vl", [str "c", str "C", str "f", str "H", str "k", str "p", str "s", str "S", str "t"]),
  (str "vo", [str "b", str "d", str "D", str "g", str "h", str "l", str "m", str "n", str "N", str "r", str "v", str "X", str "z", str "Z"]),
  (str "vowels", [str "a", str "e", str "i", str "į", str "o", str "u"])]

def keys : List (Rune × List Rune) := [(352, [353]),
  (268, [269]),
  (297, [303]), (296, [303]), (299, [303]), (298, [303]), (205, [303]), (236, [303]), (237, [303]), (204, [303]), (302, [303]),
  (381, [382])]

def kept : List Rune := [353, 269, 303, 382]

def head : List String := [
"lang:\n",
"    id      = \"lit\"\n",
"    codes   = \"lt\", \"lit\"\n",
"    english = \"Lithuanian\"\n",
"    korean  = \"리투아니아어\"\n",
"    script  = \"Latn\"\n",
"\n",
"config:\n",
"    author = \"Brian Jongseong Park <iceager@gmail.com>\"\n",
"    stage  = \"draft\"\n",
"\n",
"macros:\n",
"    \"@\" = \"<vowels>\"\n",
"\n",
"vars:\n",
"    \"cs\"     = \"b\", \"c\", \"C\", \"d\", \"D\", \"f\", \"g\", \"h\", \"H\", \"k\", \"l\", \"m\", \"n\", \"N\", \"p\", \"r\", \"s\", \"S\", \"t\", \"v\", \"X\", \"z\", \"Z\"\n",
"    \"vl\"     = \"c\", \"C\", \"f\", \"H\", \"k\", \"p\", \"s\", \"S\", \"t\"\n",
"    \"vo\"     = \"b\", \"d\", \"D\", \"g\", \"h\", \"l\", \"m\", \"n\", \"N\", \"r\", \"v\", \"X\", \"z\", \"Z\"\n",
"    \"vowels\" = \"a\", \"e\", \"i\", \"į\", \"o\", \"u\"\n",
"\n",
"normalize:\n",
"    \"š\" = \"Š\"\n",
"    \"č\" = \"Č\"\n",
"    \"į\" = \"ĩ\", \"Ĩ\", \"ī\", \"Ī\", \"Í\", \"ì\", \"í\", \"Ì\", \"Į\"\n",
"    \"ž\" = \"Ž\"\n",
"\n"]

theorem head_ok : ∃ xs, Reads [] (runes (text head)) xs (str "normalize") ∧ headOk lang macros vars keys kept xs = true := by
  apply piece_of
  · dsimp only [head]; repeat (first | exact .nil | apply Spells.cons)
  · decide +kernel

def lines1 : List String := [
"rewrite:\n",
"    \"č\"                -> \"C\"\n",
"    \"š\"                -> \"S\"\n",
"    \"{@}n{g|k}\"        -> \"N\"\n",
"    \"Ng{@|J|l|r}\"      -> \"N,g\"\n",
"    \"Ng\"               -> \"N,\"\n",
"    \"ch\"               -> \"H\"\n",
"    \"ts\"               -> \"c\"\n",
"    \"tS\"               -> \"C\"\n",
"    \"dz\"               -> \"X\"\n",
"    \"tz\"               -> \"X\"\n"]

theorem lines1_ok : Part true lang macros vars (str "normalize") lines1 (str "rewrite") := by
  apply piece_of
  · dsimp only [lines1]; repeat (first | exact .nil | apply Spells.cons)
  · decide +kernel

def lines2 : List String := [
"    \"dž\"               -> \"D\"\n",
"    \"tž\"               -> \"D\"\n",
"    \"ž\"                -> \"Z\"\n",
"    \"y\"                -> \"i\"\n",
"    \"ie\"               -> \"i%e\"\n",
"    \"i{@}\"             -> \"J\"\n",
"    \"į\"                -> \"i\"\n",
"    \"{s|S}je\"          -> \"Je\"\n",
"    \"{<cs>}je\"         -> \"e\"\n",
"    \"j{@}\"             -> \"J\"\n"]

theorem lines2_ok : Part true lang macros vars (str "rewrite") lines2 (str "rewrite") := by
  apply piece_of
  · dsimp only [lines2]; repeat (first | exact .nil | apply Spells.cons)
  · decide +kernel

def lines3 : List String := [
"    \"j\"                -> \"i\"\n",
"    \"{c|C|D|S|X|z|Z}J\" -> \"\"\n",
"    \"qu\"               -> \"kv\"\n",
"    \"q\"                -> \"k\"\n",
"    \"w\"                -> \"v\"\n",
"    \"{@}v{<cs>}\"       -> \"u\"\n",
"    \"{@}v$\"            -> \"u\"\n",
"    \"x\"                -> \"ks\"\n",
"    \"bb\"               -> \"b\"\n",
"    \"dd\"               -> \"d\"\n"]

theorem lines3_ok : Part true lang macros vars (str "rewrite") lines3 (str "rewrite") := by
  apply piece_of
  · dsimp only [lines3]; repeat (first | exact .nil | apply Spells.cons)
  · decide +kernel

def lines4 : List String := [
"    \"ff\"               -> \"f\"\n",
"    \"gg\"               -> \"g\"\n",
"    \"hh\"               -> \"h\"\n",
"    \"kk\"               -> \"k\"\n",
"    \"ll\"               -> \"l\"\n",
"    \"mm\"               -> \"m,m\"\n",
"    \"nn\"               -> \"n,n\"\n",
"    \"pp\"               -> \"p\"\n",
"    \"rr\"               -> \"r\"\n",
"    \"ss\"               -> \"s\"\n"]

theorem lines4_ok : Part true lang macros vars (str "rewrite") lines4 (str "rewrite") := by
  apply piece_of
  · dsimp only [lines4]; repeat (first | exact .nil | apply Spells.cons)
  · decide +kernel

def lines5 : List String := [
"    \"SS\"               -> \"S\"\n",
"    \"tt\"               -> \"t\"\n",
"    \"vv\"               -> \"v\"\n",
"    \"zz\"               -> \"z\"\n",
"    \"ZZ\"               -> \"Z\"\n",
"    \"ds{<vo>}\"         -> \"X\"\n",
"    \"ds\"               -> \"c\"\n",
"    \"dS{<vo>}\"         -> \"Z\"\n",
"    \"dS\"               -> \"C\"\n",
"    \"bz{<vl>}\"         -> \"ps\"\n"]

theorem lines5_ok : Part true lang macros vars (str "rewrite") lines5 (str "rewrite") := by
  apply piece_of
  · dsimp only [lines5]; repeat (first | exact .nil | apply Spells.cons)
  · decide +kernel

def lines6 : List String := [
"    \"gz{<vl>}\"         -> \"ks\"\n",
"    \"bZ{<vl>}\"         -> \"pS\"\n",
"    \"gZ{<vl>}\"         -> \"kS\"\n",
"    \"b{<vl>}\"          -> \"p\"\n",
"    \"b$\"               -> \"p\"\n",
"    \"d{<vl>}\"          -> \"t\"\n",
"    \"d$\"               -> \"t\"\n",
"    \"D{<vl>}\"          -> \"C\"\n",
"    \"D$\"               -> \"C\"\n",
"    \"g{<vl>}\"          -> \"k\"\n"]

theorem lines6_ok : Part true lang macros vars (str "rewrite") lines6 (str "rewrite") := by
  apply piece_of
  · dsimp only [lines6]; repeat (first | exact .nil | apply Spells.cons)
  · decide +kernel

def lines7 : List String := [
"    \"g$\"               -> \"k\"\n",
"    \"X{<vl>}\"          -> \"c\"\n",
"    \"X$\"               -> \"c\"\n",
"    \"z{<vl>}\"          -> \"s\"\n",
"    \"z$\"               -> \"s\"\n",
"    \"Z{<vl>}\"          -> \"S\"\n",
"    \"Z$\"               -> \"S\"\n",
"    \"{@}k{<vl>}\"       -> \"k,\"\n",
"    \"{@}p{<vl>}\"       -> \"p,\"\n",
"    \"ts\"               -> \"c\"\n"]

theorem lines7_ok : Part true lang macros vars (str "rewrite") lines7 (str "rewrite") := by
  apply piece_of
  · dsimp only [lines7]; repeat (first | exact .nil | apply Spells.cons)
  · decide +kernel

def lines8 : List String := [
"    \"tS\"               -> \"C\"\n",
"    \"C{<cs>}\"          -> \"ci\"\n",
"    \"C$\"               -> \"ci\"\n",
"    \"D{<cs>}\"          -> \"zi\"\n",
"    \"Z{<cs>}\"          -> \"zu\"\n",
"    \"S{<cs>}\"          -> \"sJu\"\n",
"    \"S$\"               -> \"sJu\"\n",
"    \"C\"                -> \"c\"\n",
"    \"D\"                -> \"z\"\n",
"    \"H\"                -> \"h\"\n"]

theorem lines8_ok : Part true lang macros vars (str "rewrite") lines8 (str "rewrite") := by
  apply piece_of
  · dsimp only [lines8]; repeat (first | exact .nil | apply Spells.cons)
  · decide +kernel

def lines9 : List String := [
"    \"S\"                -> \"sJ\"\n",
"    \"X\"                -> \"z\"\n",
"    \"Z\"                -> \"z\"\n",
"    \"^l\"               -> \"l;\"\n",
"    \"^m\"               -> \"m;\"\n",
"    \"^n\"               -> \"n;\"\n",
"    \"l$\"               -> \"l,\"\n",
"    \"m$\"               -> \"m,\"\n",
"    \"n$\"               -> \"n,\"\n",
"    \"l{@|J|m,|n,}\"     -> \"l;\"\n"]

theorem lines9_ok : Part true lang macros vars (str "rewrite") lines9 (str "rewrite") := by
  apply piece_of
  · dsimp only [lines9]; repeat (first | exact .nil | apply Spells.cons)
  · decide +kernel

def lines10 : List String := [
"    \"{,}l\"             -> \"l;\"\n",
"    \"m{@}\"             -> \"m;\"\n",
"    \"n{@|J}\"           -> \"n;\"\n",
"    \"l\"                -> \"l,\"\n",
"    \"m\"                -> \"m,\"\n",
"    \"n\"                -> \"n,\"\n",
"    \",,\"               -> \",\"\n",
"    \",;\"               -> \"\"\n",
"    \",l,\"              -> \"l,\"\n",
"    \",m,\"              -> \"m,\"\n"]

theorem lines10_ok : Part true lang macros vars (str "rewrite") lines10 (str "rewrite") := by
  apply piece_of
  · dsimp only [lines10]; repeat (first | exact .nil | apply Spells.cons)
  · decide +kernel

def lines11 : List String := [
"    \",n,\"              -> \"n,\"\n",
"    \"l{m;|n;}\"         -> \"l,\"\n",
"    \";\"                -> \"\"\n",
"    \"-\"                -> \"\"\n",
"\n"]

theorem lines11_ok : Part true lang macros vars (str "rewrite") lines11 (str "rewrite") := by
  apply piece_of
  · dsimp only [lines11]; repeat (first | exact .nil | apply Spells.cons)
  · decide +kernel

def lines12 : List String := [
"transcribe:\n",
"    \"b\"    -> \"ㅂ\"\n",
"    \"c\"    -> \"ㅊ\"\n",
"    \"d\"    -> \"ㄷ\"\n",
"    \"f\"    -> \"ㅍ\"\n",
"    \"g\"    -> \"ㄱ\"\n",
"    \"h\"    -> \"ㅎ\"\n",
"    \"k,\"   -> \"-ㄱ\"\n",
"    \"k\"    -> \"ㅋ\"\n",
"    \"^l\"   -> \"ㄹ\"\n",
"    \"{,}l\" -> \"ㄹ\"\n"]

theorem lines12_ok : Part true lang macros vars (str "rewrite") lines12 (str "transcribe") := by
  apply piece_of
  · dsimp only [lines12]; repeat (first | exact .nil | apply Spells.cons)
  · decide +kernel

def lines13 : List String := [
"    \"l,\"   -> \"-ㄹ\"\n",
"    \"l\"    -> \"-ㄹㄹ\"\n",
"    \"m,\"   -> \"-ㅁ\"\n",
"    \"m\"    -> \"ㅁ\"\n",
"    \"n,\"   -> \"-ㄴ\"\n",
"    \"n\"    -> \"ㄴ\"\n",
"    \"N\"    -> \"-ㅇ\"\n",
"    \"p,\"   -> \"-ㅂ\"\n",
"    \"p\"    -> \"ㅍ\"\n",
"    \"r\"    -> \"ㄹ\"\n"]

theorem lines13_ok : Part true lang macros vars (str "transcribe") lines13 (str "transcribe") := by
  apply piece_of
  · dsimp only [lines13]; repeat (first | exact .nil | apply Spells.cons)
  · decide +kernel

def lines14 : List String := [
"    \"s\"    -> \"ㅅ\"\n",
"    \"t\"    -> \"ㅌ\"\n",
"    \"v\"    -> \"ㅂ\"\n",
"    \"z\"    -> \"ㅈ\"\n",
"    \"Ja\"   -> \"ㅑ\"\n",
"    \"Je\"   -> \"ㅖ\"\n",
"    \"Ji\"   -> \"ㅣ\"\n",
"    \"Jo\"   -> \"ㅛ\"\n",
"    \"Ju\"   -> \"ㅠ\"\n",
"    \"a\"    -> \"ㅏ\"\n"]

theorem lines14_ok : Part true lang macros vars (str "transcribe") lines14 (str "transcribe") := by
  apply piece_of
  · dsimp only [lines14]; repeat (first | exact .nil | apply Spells.cons)
  · decide +kernel

def lines15 : List String := [
"    \"e\"    -> \"ㅔ\"\n",
"    \"i\"    -> \"ㅣ\"\n",
"    \"o\"    -> \"ㅗ\"\n",
"    \"u\"    -> \"ㅜ\"\n",
"\n"]

theorem lines15_ok : Part true lang macros vars (str "transcribe") lines15 (str "transcribe") := by
  apply piece_of
  · dsimp only [lines15]; repeat (first | exact .nil | apply Spells.cons)
  · decide +kernel

def lines16 : List String := [
"test:\n",
"    \"Robertas Poškus\"          -> \"로베르타스 포슈쿠스\"\n",
"    \"Panevėžys\"                -> \"파네베지스\"\n",
"    \"Jogaila\"                  -> \"요가일라\"\n",
"    \"Virgilijus Alekna\"        -> \"비르길리유스 알레크나\"\n",
"    \"Biržai\"                   -> \"비르자이\"\n",
"    \"Maironis\"                 -> \"마이로니스\"\n",
"    \"Alytus\"                   -> \"알리투스\"\n",
"    \"Deividas Šemberas\"        -> \"데이비다스 솀베라스\"\n",
"    \"Simonas Daukantas\"        -> \"시모나스 다우칸타스\"\n",
"    \"Gediminas Baravykas\"      -> \"게디미나스 바라비카스\"\n",
"    \"Algirdas\"                 -> \"알기르다스\"\n",
"    \"Valdas Adamkus\"           -> \"발다스 아담쿠스\"\n",
"    \"Elena Čiudakova\"          -> \"엘레나 추다코바\"\n",
"    \"Jonas Kubilius\"           -> \"요나스 쿠빌류스\"\n",
"    \"Darius Songaila\"          -> \"다류스 송가일라\"\n",
"    \"Vitas Gerulaitis\"         -> \"비타스 게룰라이티스\"\n",
"    \"Kęstutis\"                 -> \"케스투티스\"\n",
"    \"Jonušas Radvila\"          -> \"요누샤스 라드빌라\"\n",
"    \"Antanas Smetona\"          -> \"안타나스 스메토나\"\n",
"    \"Gediminas\"                -> \"게디미나스\"\n",
"    \"Žydrūnas Ilgauskas\"       -> \"지드루나스 일가우스카스\"\n",
"    \"Jonas Jablonskis\"         -> \"요나스 야블론스키스\"\n",
"    \"Įsrutis\"                  -> \"이스루티스\"\n",
"    \"Violeta Riaubiškytė\"      -> \"뵬레타 랴우비슈키테\"\n",
"    \"Čiurlionis\"               -> \"추를료니스\"\n",
"    \"Vincas Kudirka\"           -> \"빈차스 쿠디르카\"\n",
"    \"Edgaras Jankauskas\"       -> \"에드가라스 양카우스카스\"\n",
"    \"Tomas Danilevičius\"       -> \"토마스 다닐레비추스\"\n",
"    \"Laurynas Gucevičius\"      -> \"라우리나스 구체비추스\"\n",
"    \"Arvydas Sabonis\"          -> \"아르비다스 사보니스\"\n",
"    \"Šarūnas Jasikevičius\"     -> \"샤루나스 야시케비추스\"\n",
"    \"Šarūnas Marčiulionis\"     -> \"샤루나스 마르출료니스\"\n",
"    \"Jurgis Baltrušaitis\"      -> \"유르기스 발트루샤이티스\"\n",
"    \"Vytautas\"                 -> \"비타우타스\"\n",
"    \"Linas Kleiza\"             -> \"리나스 클레이자\"\n",
"    \"Mindaugas\"                -> \"민다우가스\"\n",
"    \"Kaunas\"                   -> \"카우나스\"\n",
"    \"Arminas Narbekovas\"       -> \"아르미나스 나르베코바스\"\n",
"    \"Mikalojus\"                -> \"미칼로유스\"\n",
"    \"Šiauliai\"                 -> \"샤울랴이\"\n",
"    \"Jonas Basanavičius\"       -> \"요나스 바사나비추스\"\n",
"    \"Marijampolė\"              -> \"마리얌폴레\"\n",
"    \"Mažeikiai\"                -> \"마제이캬이\"\n",
"    \"Ramūnas Šiškauskas\"       -> \"라무나스 시슈카우스카스\"\n",
"    \"Juozas Urbšys\"            -> \"유오자스 우르프시스\"\n",
"    \"Konstantinas\"             -> \"콘스탄티나스\"\n",
"    \"Dalia Grybauskaitė\"       -> \"달랴 그리바우스카이테\"\n",
"    \"Dubingiai\"                -> \"두빙갸이\"\n",
"    \"Trakai\"                   -> \"트라카이\"\n",
"    \"Martynas Mažvydas\"        -> \"마르티나스 마주비다스\"\n",
"    \"Mykolas Kleopas Oginskis\" -> \"미콜라스 클레오파스 오긴스키스\"\n",
"    \"Kernavė\"                  -> \"케르나베\"\n",
"    \"Marius Stankevičius\"      -> \"마류스 스탕케비추스\"\n",
"    \"Bernardas Brazdžionis\"    -> \"베르나르다스 브라즈조니스\"\n",
"    \"Vytautas Straižys\"        -> \"비타우타스 스트라이지스\"\n",
"    \"Jurgis Dobkevičius\"       -> \"유르기스 돕케비추스\"\n",
"    \"Salomėja Nėris\"           -> \"살로메야 네리스\"\n",
"    \"Klaipėda\"                 -> \"클라이페다\"\n",
"    \"Vilnius\"                  -> \"빌뉴스\"\n",
"    \"Marija Gimbutienė\"        -> \"마리야 김부티에네\"\n",
"    \"Kazimiera Prunskienė\"     -> \"카지미에라 프룬스키에네\"\n",
"\n"]

theorem lines16_ok : Part true lang macros vars (str "transcribe") lines16 (str "test") := by
  apply piece_of
  · dsimp only [lines16]; repeat (first | exact .nil | apply Spells.cons)
  · decide +kernel

/-- The lines of the file. -/
def lines : List String := head ++ (lines1 ++ (lines2 ++ (lines3 ++ (lines4 ++ (lines5 ++ (lines6 ++ (lines7 ++ (lines8 ++ (lines9 ++ (lines10 ++ (lines11 ++ (lines12 ++ (lines13 ++ (lines14 ++ (lines15 ++ (lines16))))))))))))))))

/-- The file is a spec with checked rules. -/
theorem sound : Sound (text lines) lang := sound_of head_ok (lines1_ok.append (lines2_ok.append (lines3_ok.append (lines4_ok.append (lines5_ok.append (lines6_ok.append (lines7_ok.append (lines8_ok.append (lines9_ok.append (lines10_ok.append (lines11_ok.append (lines12_ok.append (lines13_ok.append (lines14_ok.append (lines15_ok.append (lines16_ok)))))))))))))))) (by decide +kernel)

end Verif.Specs.Lit
