import Verif.Proofs.Bundle

/-! specs/fin.hsl, generated by tools/gen_specs.py. -/

set_option Elab.async false

namespace Verif.Specs.Fin

open Hsl

/-- The language of the spec. -/
def lang : Language :=
  ⟨str "fin", (str "fi", str "fin"), str "Finnish", str "핀란드어", str "Latn", []⟩

def macros : List (Bytes × Bytes) := [(str "@", str "<vowels>")]

def vars : List (Bytes × List Bytes) := [(str "ob", [str "b", str "d", str "f", str "g", str "k", str "p", str "s", str "t", str "T"]),
  (str "vowels", [str "a", str "A", str "e", str "i", str "o", str "O", str "u", str "y"])]

def keys : List (Rune × List Rune) := [(507, [229]), (506, [229]), (197, [229]),
  (196, [228]),
  (214, [246])]

def kept : List Rune := [229, 228, 246]

def head : List String := [
"lang:\n",
"    id      = \"fin\"\n",
"    codes   = \"fi\", \"fin\"\n",
"    english = \"Finnish\"\n",
"    korean  = \"핀란드어\"\n",
"    script  = \"Latn\"\n",
"\n",
"config:\n",
"    author = \"Brian Jongseong Park <iceager@gmail.com>\"\n",
"    stage  = \"draft\"\n",
"\n",
"macros:\n",
"    \"@\" = \"<vowels>\"\n",
"\n",
"vars:\n",
"    \"ob\"     = \"b\", \"d\", \"f\", \"g\", \"k\", \"p\", \"s\", \"t\", \"T\"\n",
"    \"vowels\" = \"a\", \"A\", \"e\", \"i\", \"o\", \"O\", \"u\", \"y\"\n",
"\n",
"normalize:\n",
"    \"å\" = \"ǻ\", \"Ǻ\", \"Å\"\n",
"    \"ä\" = \"Ä\"\n",
"    \"ö\" = \"Ö\"\n",
"\n"]

theorem head_ok : ∃ xs, Reads [] (runes (text head)) xs (str "normalize") ∧ headOk lang macros vars keys kept xs = true := by
  apply piece_of
  · dsimp only [head]; repeat (first | exact .nil | apply Spells.cons)
  · decide +kernel

def lines1 : List String := [
"rewrite:\n",
"    \"å\"            -> \"o\"\n",
"    \"ä\"            -> \"A\"\n",
"    \"ö\"            -> \"O\"\n",
"    \"w\"            -> \"v\"\n",
"    \"xx\"           -> \"x\"\n",
"    \"x\"            -> \"ks\"\n",
"    \"z\"            -> \"s\"\n",
"    \"ds\"           -> \"T\"\n",
"    \"ts\"           -> \"T\"\n",
"    \"c{e|i|y}\"     -> \"s\"\n"]

theorem lines1_ok : Part true lang macros vars (str "normalize") lines1 (str "rewrite") := by
  apply piece_of
  · dsimp only [lines1]; repeat (first | exact .nil | apply Spells.cons)
  · decide +kernel

def lines2 : List String := [
"    \"c\"            -> \"k\"\n",
"    \"q\"            -> \"k\"\n",
"    \"ng\"           -> \"N\"\n",
"    \"nk\"           -> \"Nk\"\n",
"    \"mn{@}\"        -> \"m,n\"\n",
"    \"mn\"           -> \"m\"\n",
"    \"th\"           -> \"t\"\n",
"    \"^j{@}\"        -> \"J\"\n",
"    \"{@}j{@}\"      -> \"J\"\n",
"    \"{h|s|T}j\"     -> \"%J\"\n"]

theorem lines2_ok : Part true lang macros vars (str "rewrite") lines2 (str "rewrite") := by
  apply piece_of
  · dsimp only [lines2]; repeat (first | exact .nil | apply Spells.cons)
  · decide +kernel

def lines3 : List String := [
"    \"j\"            -> \"i\"\n",
"    \"aa\"           -> \"a\"\n",
"    \"bb\"           -> \"b\"\n",
"    \"dd\"           -> \"d\"\n",
"    \"ee\"           -> \"e\"\n",
"    \"AA\"           -> \"A\"\n",
"    \"ff\"           -> \"f\"\n",
"    \"gg\"           -> \"g\"\n",
"    \"hh\"           -> \"h\"\n",
"    \"ii\"           -> \"i\"\n"]

theorem lines3_ok : Part true lang macros vars (str "rewrite") lines3 (str "rewrite") := by
  apply piece_of
  · dsimp only [lines3]; repeat (first | exact .nil | apply Spells.cons)
  · decide +kernel

def lines4 : List String := [
"    \"jj\"           -> \"j\"\n",
"    \"kk\"           -> \"k\"\n",
"    \"ll\"           -> \"l\"\n",
"    \"{@}mm{@}\"     -> \"m,m\"\n",
"    \"mm\"           -> \"m\"\n",
"    \"{@}nn{@}\"     -> \"n,n\"\n",
"    \"nn\"           -> \"n\"\n",
"    \"oo\"           -> \"o\"\n",
"    \"pp\"           -> \"p\"\n",
"    \"rr\"           -> \"r\"\n"]

theorem lines4_ok : Part true lang macros vars (str "rewrite") lines4 (str "rewrite") := by
  apply piece_of
  · dsimp only [lines4]; repeat (first | exact .nil | apply Spells.cons)
  · decide +kernel

def lines5 : List String := [
"    \"ss\"           -> \"s\"\n",
"    \"tt\"           -> \"t\"\n",
"    \"uu\"           -> \"u\"\n",
"    \"vv\"           -> \"v\"\n",
"    \"yy\"           -> \"y\"\n",
"    \"zz\"           -> \"z\"\n",
"    \"{@}b{<ob>}\"   -> \"p,\"\n",
"    \"{@}g{<ob>}\"   -> \"k,\"\n",
"    \"{@}k{<ob>}\"   -> \"k,\"\n",
"    \"{@}p{<ob>}\"   -> \"p,\"\n"]

theorem lines5_ok : Part true lang macros vars (str "rewrite") lines5 (str "rewrite") := by
  apply piece_of
  · dsimp only [lines5]; repeat (first | exact .nil | apply Spells.cons)
  · decide +kernel

def lines6 : List String := [
"    \"{@}t{<ob>}\"   -> \"t,\"\n",
"    \"^l\"           -> \"l;\"\n",
"    \"^m\"           -> \"m;\"\n",
"    \"^n\"           -> \"n;\"\n",
"    \"l$\"           -> \"l,\"\n",
"    \"m$\"           -> \"m,\"\n",
"    \"n$\"           -> \"n,\"\n",
"    \"l{@|m,|n,|N}\" -> \"l;\"\n",
"    \"{,}l\"         -> \"l;\"\n",
"    \"m{@}\"         -> \"m;\"\n"]

theorem lines6_ok : Part true lang macros vars (str "rewrite") lines6 (str "rewrite") := by
  apply piece_of
  · dsimp only [lines6]; repeat (first | exact .nil | apply Spells.cons)
  · decide +kernel

def lines7 : List String := [
"    \"n{@}\"         -> \"n;\"\n",
"    \"l\"            -> \"l,\"\n",
"    \"m\"            -> \"m,\"\n",
"    \"n\"            -> \"n,\"\n",
"    \"N\"            -> \"N,\"\n",
"    \",,\"           -> \",\"\n",
"    \",;\"           -> \"\"\n",
"    \",l,\"          -> \"l,\"\n",
"    \",m,\"          -> \"m,\"\n",
"    \",n,\"          -> \"n,\"\n"]

theorem lines7_ok : Part true lang macros vars (str "rewrite") lines7 (str "rewrite") := by
  apply piece_of
  · dsimp only [lines7]; repeat (first | exact .nil | apply Spells.cons)
  · decide +kernel

def lines8 : List String := [
"    \",N,\"          -> \"N,\"\n",
"    \"l{m;|n;}\"     -> \"l,\"\n",
"    \";\"            -> \"\"\n",
"\n"]

theorem lines8_ok : Part true lang macros vars (str "rewrite") lines8 (str "rewrite") := by
  apply piece_of
  · dsimp only [lines8]; repeat (first | exact .nil | apply Spells.cons)
  · decide +kernel

def lines9 : List String := [
"transcribe:\n",
"    \"b\"      -> \"ㅂ\"\n",
"    \"d\"      -> \"ㄷ\"\n",
"    \"f\"      -> \"ㅍ\"\n",
"    \"g\"      -> \"ㄱ\"\n",
"    \"h\"      -> \"ㅎ\"\n",
"    \"k,\"     -> \"-ㄱ\"\n",
"    \"k\"      -> \"ㅋ\"\n",
"    \"^l\"     -> \"ㄹ\"\n",
"    \"{,|-}l\" -> \"ㄹ\"\n",
"    \"-\"      -> \"\"\n"]

theorem lines9_ok : Part true lang macros vars (str "rewrite") lines9 (str "transcribe") := by
  apply piece_of
  · dsimp only [lines9]; repeat (first | exact .nil | apply Spells.cons)
  · decide +kernel

def lines10 : List String := [
"    \"l,\"     -> \"-ㄹ\"\n",
"    \"l\"      -> \"-ㄹㄹ\"\n",
"    \"m,\"     -> \"-ㅁ\"\n",
"    \"m\"      -> \"ㅁ\"\n",
"    \"n,\"     -> \"-ㄴ\"\n",
"    \"n\"      -> \"ㄴ\"\n",
"    \"N\"      -> \"-ㅇ\"\n",
"    \"p,\"     -> \"-ㅂ\"\n",
"    \"p\"      -> \"ㅍ\"\n",
"    \"r\"      -> \"ㄹ\"\n"]

theorem lines10_ok : Part true lang macros vars (str "transcribe") lines10 (str "transcribe") := by
  apply piece_of
  · dsimp only [lines10]; repeat (first | exact .nil | apply Spells.cons)
  · decide +kernel

def lines11 : List String := [
"    \"s\"      -> \"ㅅ\"\n",
"    \"t,\"     -> \"-ㅅ\"\n",
"    \"t\"      -> \"ㅌ\"\n",
"    \"T\"      -> \"ㅊ\"\n",
"    \"v\"      -> \"ㅂ\"\n",
"    \"%\"      -> \"ㅇ\"\n",
"    \"Ja\"     -> \"ㅑ\"\n",
"    \"JA\"     -> \"ㅒ\"\n",
"    \"Je\"     -> \"ㅖ\"\n",
"    \"Ji\"     -> \"ㅣ\"\n"]

theorem lines11_ok : Part true lang macros vars (str "transcribe") lines11 (str "transcribe") := by
  apply piece_of
  · dsimp only [lines11]; repeat (first | exact .nil | apply Spells.cons)
  · decide +kernel

def lines12 : List String := [
"    \"Jo\"     -> \"ㅛ\"\n",
"    \"JO\"     -> \"ㅚ\"\n",
"    \"Ju\"     -> \"ㅠ\"\n",
"    \"Jy\"     -> \"ㅟ\"\n",
"    \"a\"      -> \"ㅏ\"\n",
"    \"A\"      -> \"ㅐ\"\n",
"    \"e\"      -> \"ㅔ\"\n",
"    \"i\"      -> \"ㅣ\"\n",
"    \"o\"      -> \"ㅗ\"\n",
"    \"u\"      -> \"ㅜ\"\n"]

theorem lines12_ok : Part true lang macros vars (str "transcribe") lines12 (str "transcribe") := by
  apply piece_of
  · dsimp only [lines12]; repeat (first | exact .nil | apply Spells.cons)
  · decide +kernel

def lines13 : List String := [
"    \"y\"      -> \"ㅟ\"\n",
"    \"O\"      -> \"ㅚ\"\n",
"\n"]

theorem lines13_ok : Part true lang macros vars (str "transcribe") lines13 (str "transcribe") := by
  apply piece_of
  · dsimp only [lines13]; repeat (first | exact .nil | apply Spells.cons)
  · decide +kernel

def lines14 : List String := [
"test:\n",
"    \"Turku\"                   -> \"투르쿠\"\n",
"    \"Rovaniemi\"               -> \"로바니에미\"\n",
"    \"Yrjö Väisälä\"            -> \"위리외 배이샐래\"\n",
"    \"Kimi Räikkönen\"          -> \"키미 래이쾨넨\"\n",
"    \"Tampere\"                 -> \"탐페레\"\n",
"    \"Tapio Wirkkala\"          -> \"타피오 비르칼라\"\n",
"    \"Frans Eemil Sillanpää\"   -> \"프란스 에밀 실란패\"\n",
"    \"Miikka Kiprusoff\"        -> \"미카 키프루소프\"\n",
"    \"Juhani Aho\"              -> \"유하니 아호\"\n",
"    \"Lappeenranta\"            -> \"라펜란타\"\n",
"    \"Louhi\"                   -> \"로우히\"\n",
"    \"kantele\"                 -> \"칸텔레\"\n",
"    \"Tarja Turunen\"           -> \"타리아 투루넨\"\n",
"    \"Espoo\"                   -> \"에스포\"\n",
"    \"Suomenlinna\"             -> \"수오멘린나\"\n",
"    \"Lemminkäinen\"            -> \"렘밍캐이넨\"\n",
"    \"Kullervo\"                -> \"쿨레르보\"\n",
"    \"Aino\"                    -> \"아이노\"\n",
"    \"Hannes Kolehmainen\"      -> \"한네스 콜레흐마이넨\"\n",
"    \"Vaasa\"                   -> \"바사\"\n",
"    \"Kajaani\"                 -> \"카야니\"\n",
"    \"Pekka Halonen\"           -> \"페카 할로넨\"\n",
"    \"Joensuu\"                 -> \"요엔수\"\n",
"    \"Teemu Selanne\"           -> \"테무 셀란네\"\n",
"    \"Jussi Jääskeläinen\"      -> \"유시 얘스켈래이넨\"\n",
"    \"Saku Koivu\"              -> \"사쿠 코이부\"\n",
"    \"Joukahainen\"             -> \"요우카하이넨\"\n",
"    \"Nokia\"                   -> \"노키아\"\n",
"    \"Jari Litmanen\"           -> \"야리 리트마넨\"\n",
"    \"Tarja Halonen\"           -> \"타리아 할로넨\"\n",
"    \"Akseli Gallen-Kallela\"   -> \"악셀리 갈렌칼렐라\"\n",
"    \"Helsinki\"                -> \"헬싱키\"\n",
"    \"Jari Kurri\"              -> \"야리 쿠리\"\n",
"    \"Karjala\"                 -> \"카리알라\"\n",
"    \"Mauno Koivisto\"          -> \"마우노 코이비스토\"\n",
"    \"Artturi Ilmari Virtanen\" -> \"아르투리 일마리 비르타넨\"\n",
"    \"Marja-Liisa Kirvesniemi\" -> \"마리아리사 키르베스니에미\"\n",
"    \"Jyväskylä\"               -> \"위배스퀼래\"\n",
"    \"Saimaa\"                  -> \"사이마\"\n",
"    \"Mika Häkkinen\"           -> \"미카 해키넨\"\n",
"    \"Suomi\"                   -> \"수오미\"\n",
"    \"Kalevala\"                -> \"칼레발라\"\n",
"    \"Alvar Aalto\"             -> \"알바르 알토\"\n",
"    \"sauna\"                   -> \"사우나\"\n",
"    \"Martti Ahtisaari\"        -> \"마르티 아흐티사리\"\n",
"    \"Pohjola\"                 -> \"포흐욜라\"\n",
"    \"Sami Hyypiä\"             -> \"사미 휘피애\"\n",
"    \"Veikko Hakulinen\"        -> \"베이코 하쿨리넨\"\n",
"    \"Väinämöinen\"             -> \"배이내뫼이넨\"\n",
"    \"sisu\"                    -> \"시수\"\n",
"    \"Urho Kekkonen\"           -> \"우르호 케코넨\"\n",
"    \"Oulu\"                    -> \"오울루\"\n",
"    \"Mikkeli\"                 -> \"미켈리\"\n",
"    \"Ilmarinen\"               -> \"일마리넨\"\n",
"    \"Marjatta\"                -> \"마리아타\"\n",
"    \"Vantaa\"                  -> \"반타\"\n",
"    \"Eero Saarinen\"           -> \"에로 사리넨\"\n",
"    \"Eero Mäntyranta\"         -> \"에로 맨튀란타\"\n",
"    \"Paavo Nurmi\"             -> \"파보 누르미\"\n",
"    \"Ukko\"                    -> \"우코\"\n",
"    \"Tapiola\"                 -> \"타피올라\"\n",
"    \"Sampo\"                   -> \"삼포\"\n",
"    \"Ville Ritola\"            -> \"빌레 리톨라\"\n",
"    \"Kuopio\"                  -> \"쿠오피오\"\n",
"    \"Savonlinna\"              -> \"사본린나\"\n",
"    \"Aki Kaurismäki\"          -> \"아키 카우리스매키\"\n",
"\n"]

theorem lines14_ok : Part true lang macros vars (str "transcribe") lines14 (str "test") := by
  apply piece_of
  · dsimp only [lines14]; repeat (first | exact .nil | apply Spells.cons)
  · decide +kernel

/-- The lines of the file. -/
def lines : List String := head ++ (lines1 ++ (lines2 ++ (lines3 ++ (lines4 ++ (lines5 ++ (lines6 ++ (lines7 ++ (lines8 ++ (lines9 ++ (lines10 ++ (lines11 ++ (lines12 ++ (lines13 ++ (lines14))))))))))))))

/-- The file is a spec with checked rules. -/
theorem sound : Sound (text lines) lang := sound_of head_ok (lines1_ok.append (lines2_ok.append (lines3_ok.append (lines4_ok.append (lines5_ok.append (lines6_ok.append (lines7_ok.append (lines8_ok.append (lines9_ok.append (lines10_ok.append (lines11_ok.append (lines12_ok.append (lines13_ok.append (lines14_ok)))))))))))))) (by decide +kernel)

end Verif.Specs.Fin
