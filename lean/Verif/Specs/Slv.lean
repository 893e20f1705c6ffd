import Verif.Proofs.Bundle

/-! specs/slv.hsl, generated by tools/gen_specs.py. -/

set_option Elab.async false

namespace Verif.Specs.Slv

open Hsl

/-- The language of the spec. -/
def lang : Language :=
  ⟨str "slv", (str "sl", str "slv"), str "Slovenian", str "슬로베니아어", str "Latn", []⟩

def macros : List (Bytes × Bytes) := [(str "@", str "<vowels>")]

def vars : List (Bytes × List Bytes) := [(str "vl", [str "c", str "C", str "f", str "k", str "p", str "s", str "S", str "t"]),
  (str "vowels", [str "a", str "e", str "i", str "o", str "O", str "u", str "U"])]

def keys : List (Rune × List Rune) := [(352, [353]),
  (268, [269]), (263, [269]), (262, [269]),
  (272, [273]),
  (214, [246]),
  (220, [252]),
  (381, [382])]

def kept : List Rune := [353, 269, 273, 246, 252, 382]

def head : List String := [
"lang:\n",
"    id      = \"slv\"\n",
"    codes   = \"sl\", \"slv\"\n",
"    english = \"Slovenian\"\n",
"    korean  = \"슬로베니아어\"\n",
"    script  = \"Latn\"\n",
"\n",
"config:\n",
"    author = \"Brian Jongseong Park <iceager@gmail.com>\"\n",
"    stage  = \"draft\"\n",
"\n",
"macros:\n",
"    \"@\" = \"<vowels>\"\n",
"\n",
"vars:\n",
"    \"vl\"     = \"c\", \"C\", \"f\", \"k\", \"p\", \"s\", \"S\", \"t\"\n",
"    \"vowels\" = \"a\", \"e\", \"i\", \"o\", \"O\", \"u\", \"U\"\n",
"\n",
"normalize:\n",
"    \"š\" = \"Š\"\n",
"    \"č\" = \"Č\", \"ć\", \"Ć\"\n",
"    \"đ\" = \"Đ\"\n",
"    \"ö\" = \"Ö\"\n",
"    \"ü\" = \"Ü\"\n",
"    \"ž\" = \"Ž\"\n",
"\n"]

theorem head_ok : ∃ xs, Reads [] (runes (text head)) xs (str "normalize") ∧ headOk lang macros vars keys kept xs = true := by
  apply piece_of
  · dsimp only [head]; repeat (first | exact .nil | apply Spells.cons)
  · decide +kernel

def lines1 : List String := [
"rewrite:\n",
"    \"č\"               -> \"C\"\n",
"    \"š\"               -> \"S\"\n",
"    \"ž\"               -> \"Z\"\n",
"    \"ö\"               -> \"O\"\n",
"    \"ü\"               -> \"U\"\n",
"    \"đ\"               -> \"dZ\"\n",
"    \"qu\"              -> \"kv\"\n",
"    \"q\"               -> \"k\"\n",
"    \"w\"               -> \"v\"\n",
"    \"x\"               -> \"ks\"\n"]

theorem lines1_ok : Part true lang macros vars (str "normalize") lines1 (str "rewrite") := by
  apply piece_of
  · dsimp only [lines1]; repeat (first | exact .nil | apply Spells.cons)
  · decide +kernel

def lines2 : List String := [
"    \"^y{@}\"           -> \"J\"\n",
"    \"{@}y{@}\"         -> \"J\"\n",
"    \"iy\"              -> \"i\"\n",
"    \"y\"               -> \"i\"\n",
"    \"^j{@}\"           -> \"J\"\n",
"    \"{@}j{@}\"         -> \"J\"\n",
"    \"{c|C|S|z|Z}j{@}\" -> \"\"\n",
"    \"sje\"             -> \"sJe\"\n",
"    \"je\"              -> \"ie\"\n",
"    \"{l|n|s}j{@}\"     -> \"J\"\n"]

theorem lines2_ok : Part true lang macros vars (str "rewrite") lines2 (str "rewrite") := by
  apply piece_of
  · dsimp only [lines2]; repeat (first | exact .nil | apply Spells.cons)
  · decide +kernel

def lines3 : List String := [
"    \"{l|n}j\"          -> \"\"\n",
"    \"ij\"              -> \"i\"\n",
"    \"j\"               -> \"i\"\n",
"    \"v{@}\"            -> \"V\"\n",
"    \"v\"               -> \"u\"\n",
"    \"ts\"              -> \"c\"\n",
"    \"tS\"              -> \"C\"\n",
"    \"b{<vl>}\"         -> \"p\"\n",
"    \"b$\"              -> \"p\"\n",
"    \"d{<vl>}\"         -> \"t\"\n"]

theorem lines3_ok : Part true lang macros vars (str "rewrite") lines3 (str "rewrite") := by
  apply piece_of
  · dsimp only [lines3]; repeat (first | exact .nil | apply Spells.cons)
  · decide +kernel

def lines4 : List String := [
"    \"d$\"              -> \"t\"\n",
"    \"dz{<vl>}\"        -> \"c\"\n",
"    \"dz$\"             -> \"c\"\n",
"    \"dZ{<vl>}\"        -> \"C\"\n",
"    \"dZ$\"             -> \"C\"\n",
"    \"g{<vl>}\"         -> \"k\"\n",
"    \"g$\"              -> \"k\"\n",
"    \"z{<vl>}\"         -> \"s\"\n",
"    \"z$\"              -> \"s\"\n",
"    \"Z{<vl>}\"         -> \"S\"\n"]

theorem lines4_ok : Part true lang macros vars (str "rewrite") lines4 (str "rewrite") := by
  apply piece_of
  · dsimp only [lines4]; repeat (first | exact .nil | apply Spells.cons)
  · decide +kernel

def lines5 : List String := [
"    \"Z$\"              -> \"S\"\n",
"    \"C{@}\"            -> \"c\"\n",
"    \"C\"               -> \"ci\"\n",
"    \"SS\"              -> \"S\"\n",
"    \"S{@}\"            -> \"sJ\"\n",
"    \"S$\"              -> \"si\"\n",
"    \"S\"               -> \"sJu\"\n",
"    \"ZZ\"              -> \"Z\"\n",
"    \"dZ{@}\"           -> \"z\"\n",
"    \"dZ\"              -> \"zi\"\n"]

theorem lines5_ok : Part true lang macros vars (str "rewrite") lines5 (str "rewrite") := by
  apply piece_of
  · dsimp only [lines5]; repeat (first | exact .nil | apply Spells.cons)
  · decide +kernel

def lines6 : List String := [
"    \"Z{@}\"            -> \"z\"\n",
"    \"Z\"               -> \"zu\"\n",
"    \"aa\"              -> \"a\"\n",
"    \"bb\"              -> \"b\"\n",
"    \"dd\"              -> \"d\"\n",
"    \"ee\"              -> \"e\"\n",
"    \"ff\"              -> \"f\"\n",
"    \"gg\"              -> \"g\"\n",
"    \"hh\"              -> \"h\"\n",
"    \"ii\"              -> \"i\"\n"]

theorem lines6_ok : Part true lang macros vars (str "rewrite") lines6 (str "rewrite") := by
  apply piece_of
  · dsimp only [lines6]; repeat (first | exact .nil | apply Spells.cons)
  · decide +kernel

def lines7 : List String := [
"    \"kk\"              -> \"k\"\n",
"    \"ll\"              -> \"l\"\n",
"    \"{@}mm{@}\"        -> \"m,m\"\n",
"    \"mm\"              -> \"m\"\n",
"    \"{@}nn{@}\"        -> \"n,n\"\n",
"    \"nn\"              -> \"n\"\n",
"    \"oo\"              -> \"o\"\n",
"    \"pp\"              -> \"p\"\n",
"    \"rr\"              -> \"r\"\n",
"    \"ss\"              -> \"s\"\n"]

theorem lines7_ok : Part true lang macros vars (str "rewrite") lines7 (str "rewrite") := by
  apply piece_of
  · dsimp only [lines7]; repeat (first | exact .nil | apply Spells.cons)
  · decide +kernel

def lines8 : List String := [
"    \"tt\"              -> \"t\"\n",
"    \"uu\"              -> \"u\"\n",
"    \"zz\"              -> \"z\"\n",
"    \"dz\"              -> \"z\"\n",
"    \"{@}k{<vl>}\"      -> \"k,\"\n",
"    \"{@}p{<vl>}\"      -> \"p,\"\n",
"    \"^l\"              -> \"l;\"\n",
"    \"^m\"              -> \"m;\"\n",
"    \"^n\"              -> \"n;\"\n",
"    \"l$\"              -> \"l,\"\n"]

theorem lines8_ok : Part true lang macros vars (str "rewrite") lines8 (str "rewrite") := by
  apply piece_of
  · dsimp only [lines8]; repeat (first | exact .nil | apply Spells.cons)
  · decide +kernel

def lines9 : List String := [
"    \"m$\"              -> \"m,\"\n",
"    \"n$\"              -> \"n,\"\n",
"    \"l{@|J|m,|n,}\"    -> \"l;\"\n",
"    \"{,}l\"            -> \"l;\"\n",
"    \"m{@}\"            -> \"m;\"\n",
"    \"n{@|J}\"          -> \"n;\"\n",
"    \"l\"               -> \"l,\"\n",
"    \"m\"               -> \"m,\"\n",
"    \"n\"               -> \"n,\"\n",
"    \",,\"              -> \",\"\n"]

theorem lines9_ok : Part true lang macros vars (str "rewrite") lines9 (str "rewrite") := by
  apply piece_of
  · dsimp only [lines9]; repeat (first | exact .nil | apply Spells.cons)
  · decide +kernel

def lines10 : List String := [
"    \",;\"              -> \"\"\n",
"    \",l,\"             -> \"l,\"\n",
"    \",m,\"             -> \"m,\"\n",
"    \",n,\"             -> \"n,\"\n",
"    \"l{m;|n;}\"        -> \"l,\"\n",
"    \";\"               -> \"\"\n",
"\n"]

theorem lines10_ok : Part true lang macros vars (str "rewrite") lines10 (str "rewrite") := by
  apply piece_of
  · dsimp only [lines10]; repeat (first | exact .nil | apply Spells.cons)
  · decide +kernel

def lines11 : List String := [
"transcribe:\n",
"    \"b\"    -> \"ㅂ\"\n",
"    \"c\"    -> \"ㅊ\"\n",
"    \"d\"    -> \"ㄷ\"\n",
"    \"f\"    -> \"ㅍ\"\n",
"    \"g\"    -> \"ㄱ\"\n",
"    \"h\"    -> \"ㅎ\"\n",
"    \"k,\"   -> \"-ㄱ\"\n",
"    \"k\"    -> \"ㅋ\"\n",
"    \"^l\"   -> \"ㄹ\"\n",
"    \"{,}l\" -> \"ㄹ\"\n"]

theorem lines11_ok : Part true lang macros vars (str "rewrite") lines11 (str "transcribe") := by
  apply piece_of
  · dsimp only [lines11]; repeat (first | exact .nil | apply Spells.cons)
  · decide +kernel

def lines12 : List String := [
"    \"l,\"   -> \"-ㄹ\"\n",
"    \"l\"    -> \"-ㄹㄹ\"\n",
"    \"m,\"   -> \"-ㅁ\"\n",
"    \"m\"    -> \"ㅁ\"\n",
"    \"n,\"   -> \"-ㄴ\"\n",
"    \"n\"    -> \"ㄴ\"\n",
"    \"p,\"   -> \"-ㅂ\"\n",
"    \"p\"    -> \"ㅍ\"\n",
"    \"r\"    -> \"ㄹ\"\n",
"    \"s\"    -> \"ㅅ\"\n"]

theorem lines12_ok : Part true lang macros vars (str "transcribe") lines12 (str "transcribe") := by
  apply piece_of
  · dsimp only [lines12]; repeat (first | exact .nil | apply Spells.cons)
  · decide +kernel

def lines13 : List String := [
"    \"t\"    -> \"ㅌ\"\n",
"    \"V\"    -> \"ㅂ\"\n",
"    \"z\"    -> \"ㅈ\"\n",
"    \"Ja\"   -> \"ㅑ\"\n",
"    \"Je\"   -> \"ㅖ\"\n",
"    \"Ji\"   -> \"ㅣ\"\n",
"    \"Jo\"   -> \"ㅛ\"\n",
"    \"JO\"   -> \"ㅛ\"\n",
"    \"Ju\"   -> \"ㅠ\"\n",
"    \"JU\"   -> \"ㅠ\"\n"]

theorem lines13_ok : Part true lang macros vars (str "transcribe") lines13 (str "transcribe") := by
  apply piece_of
  · dsimp only [lines13]; repeat (first | exact .nil | apply Spells.cons)
  · decide +kernel

def lines14 : List String := [
"    \"a\"    -> \"ㅏ\"\n",
"    \"e\"    -> \"ㅔ\"\n",
"    \"i\"    -> \"ㅣ\"\n",
"    \"o\"    -> \"ㅗ\"\n",
"    \"O\"    -> \"ㅚ\"\n",
"    \"u\"    -> \"ㅜ\"\n",
"    \"U\"    -> \"ㅟ\"\n",
"\n"]

theorem lines14_ok : Part true lang macros vars (str "transcribe") lines14 (str "transcribe") := by
  apply piece_of
  · dsimp only [lines14]; repeat (first | exact .nil | apply Spells.cons)
  · decide +kernel

def lines15 : List String := [
"test:\n",
"    \"Gregor Fučka\"           -> \"그레고르 푸치카\"\n",
"    \"Saša Vujačič\"           -> \"사샤 부야치치\"\n",
"    \"Primož Trubar\"          -> \"프리모시 트루바르\"\n",
"    \"Novo mesto\"             -> \"노보 메스토\"\n",
"    \"Triglav\"                -> \"트리글라우\"\n",
"    \"Slavoj Žižek\"           -> \"슬라보이 지제크\"\n",
"    \"Maribor\"                -> \"마리보르\"\n",
"    \"Anton Martin Slomšek\"   -> \"안톤 마르틴 슬롬셰크\"\n",
"    \"Jakob Petelin Gallus\"   -> \"야코프 페텔린 갈루스\"\n",
"    \"Ljubljana\"              -> \"류블랴나\"\n",
"    \"Trbovlje\"               -> \"트르보울리에\"\n",
"    \"Janez Janša\"            -> \"야네스 얀샤\"\n",
"    \"Pivka\"                  -> \"피우카\"\n",
"    \"Jurij Vega\"             -> \"유리 베가\"\n",
"    \"Armin Bačinovič\"        -> \"아르민 바치노비치\"\n",
"    \"Fran Levstik\"           -> \"프란 레우스티크\"\n",
"    \"Anže Kopitar\"           -> \"안제 코피타르\"\n",
"    \"Kamnik\"                 -> \"캄니크\"\n",
"    \"Milan Kučan\"            -> \"밀란 쿠찬\"\n",
"    \"Sebastjan Cimirotič\"    -> \"세바스티안 치미로티치\"\n",
"    \"Ptuj\"                   -> \"프투이\"\n",
"    \"Janez Bleiweis\"         -> \"야네스 블레이베이스\"\n",
"    \"Janez Vajkard Valvasor\" -> \"야네스 바이카르트 발바소르\"\n",
"    \"Rudolf Maister\"         -> \"루돌프 마이스테르\"\n",
"    \"Beno Udrih\"             -> \"베노 우드리흐\"\n",
"    \"Željko Ivanek\"          -> \"젤코 이바네크\"\n",
"    \"Jesenice\"               -> \"예세니체\"\n",
"    \"Jože Plečnik\"           -> \"요제 플레치니크\"\n",
"    \"Robert Koren\"           -> \"로베르트 코렌\"\n",
"    \"Zlatko Dedič\"           -> \"즐라트코 데디치\"\n",
"    \"Škofja Loka\"            -> \"슈코피아 로카\"\n",
"    \"Bohinj\"                 -> \"보힌\"\n",
"    \"Uroš Slokar\"            -> \"우로시 슬로카르\"\n",
"    \"Janez Drnovšek\"         -> \"야네스 드르노우셰크\"\n",
"    \"Zlatko Zahovič\"         -> \"즐라트코 자호비치\"\n",
"    \"Rihard Jakopič\"         -> \"리하르트 야코피치\"\n",
"    \"Željko Milinovič\"       -> \"젤코 밀리노비치\"\n",
"    \"Koper\"                  -> \"코페르\"\n",
"    \"Lojze Peterle\"          -> \"로이제 페테를레\"\n",
"    \"Piran\"                  -> \"피란\"\n",
"    \"Matjaž Kek\"             -> \"마티아시 케크\"\n",
"    \"Sašo Udovič\"            -> \"사쇼 우도비치\"\n",
"    \"Milenko Ačimovič\"       -> \"밀렌코 아치모비치\"\n",
"    \"Ivana Kobilca\"          -> \"이바나 코빌차\"\n",
"    \"Nova Gorica\"            -> \"노바 고리차\"\n",
"    \"Matevž Irt\"             -> \"마테우시 이르트\"\n",
"    \"Milivoje Novakovič\"     -> \"밀리보예 노바코비치\"\n",
"    \"Ivan Cankar\"            -> \"이반 찬카르\"\n",
"    \"France Prešeren\"        -> \"프란체 프레셰렌\"\n",
"    \"Jože Brumen\"            -> \"요제 브루멘\"\n",
"    \"Celje\"                  -> \"첼리에\"\n",
"    \"Domžale\"                -> \"돔잘레\"\n",
"    \"Samir Handanovič\"       -> \"사미르 한다노비치\"\n",
"    \"Zdenko Verdenik\"        -> \"즈덴코 베르데니크\"\n",
"    \"Kranj\"                  -> \"크란\"\n",
"    \"Dubravka Tomšič\"        -> \"두브라우카 톰시치\"\n",
"    \"Leon Štukelj\"           -> \"레온 슈투켈\"\n",
"    \"Murska Sobota\"          -> \"무르스카 소보타\"\n",
"    \"Katarina Srebotnik\"     -> \"카타리나 스레보트니크\"\n",
"    \"Oskar Kogoj\"            -> \"오스카르 코고이\"\n",
"    \"Anton Aškerc\"           -> \"안톤 아슈케르츠\"\n",
"    \"Srečko Katanec\"         -> \"스레치코 카타네츠\"\n",
"    \"Izola\"                  -> \"이졸라\"\n",
"    \"Bojan Prašnikar\"        -> \"보얀 프라슈니카르\"\n",
"    \"Radoslav Nesterovič\"    -> \"라도슬라우 네스테로비치\"\n",
"    \"Velenje\"                -> \"벨레니에\"\n",
"    \"Bled\"                   -> \"블레트\"\n",
"    \"Friderik Pregl\"         -> \"프리데리크 프레글\"\n",
"    \"Bojan Jokić\"            -> \"보얀 요키치\"\n",
"    \"Danilo Türk\"            -> \"다닐로 튀르크\"\n",
"    \"Kras\"                   -> \"크라스\"\n",
"    \"Slovenija\"              -> \"슬로베니야\"\n"]

theorem lines15_ok : Part true lang macros vars (str "transcribe") lines15 (str "test") := by
  apply piece_of
  · dsimp only [lines15]; repeat (first | exact .nil | apply Spells.cons)
  · decide +kernel

def lines16 : List String := [
"    \"Borut Pahor\"            -> \"보루트 파호르\"\n",
"\n"]

theorem lines16_ok : Part true lang macros vars (str "test") lines16 (str "test") := by
  apply piece_of
  · dsimp only [lines16]; repeat (first | exact .nil | apply Spells.cons)
  · decide +kernel

/-- The lines of the file. -/
def lines : List String := head ++ (lines1 ++ (lines2 ++ (lines3 ++ (lines4 ++ (lines5 ++ (lines6 ++ (lines7 ++ (lines8 ++ (lines9 ++ (lines10 ++ (lines11 ++ (lines12 ++ (lines13 ++ (lines14 ++ (lines15 ++ (lines16))))))))))))))))

/-- The file is a spec with checked rules. -/
theorem sound : Sound (text lines) lang := sound_of head_ok (lines1_ok.append (lines2_ok.append (lines3_ok.append (lines4_ok.append (lines5_ok.append (lines6_ok.append (lines7_ok.append (lines8_ok.append (lines9_ok.append (lines10_ok.append (lines11_ok.append (lines12_ok.append (lines13_ok.append (lines14_ok.append (lines15_ok.append (lines16_ok)))))))))))))))) (by decide +kernel)

end Verif.Specs.Slv
