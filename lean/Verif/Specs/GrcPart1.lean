import Verif.Specs.GrcHead

/-! specs/grc.hsl, part 1, generated by tools/gen_specs.py. -/

set_option Elab.async false

namespace Verif.Specs.Grc

open Hsl

def lines1 : List String := [
"rewrite:\n",
"    \"(<sv>)̀\"     -> \"(<av>)\"\n",
"    \"̀\"           -> \"\"\n",
"    \"(<sv>)́\"     -> \"(<av>)\"\n",
"    \"́\"           -> \"\"\n",
"    \"(<sv>)͂\"     -> \"(<av>)\"\n",
"    \"͂\"           -> \"\"\n",
"    \"̈́\"           -> \"̈\"\n",
"    \"ϊ\"          -> \"ϊ\"\n",
"    \"ί̈\"          -> \"ϊ\"\n",
"    \"ϋ\"          -> \"ϋ\"\n"]

theorem lines1_ok : Part true lang macros vars (str "normalize") lines1 (str "rewrite") := by
  apply piece_of
  · dsimp only [lines1]; repeat (first | exact .nil | apply Spells.cons)
  · decide +kernel

def lines2 : List String := [
"    \"ύ̈\"          -> \"ϋ\"\n",
"    \"̄\"           -> \"\"\n",
"    \"̓\"           -> \"\"\n",
"    \"̓\"           -> \"\"\n",
"    \"̔\"           -> \"Ξ\"\n",
"    \"῝\"           -> \"Ξ\"\n",
"    \"῞\"           -> \"Ξ\"\n",
"    \"῟\"           -> \"Ξ\"\n",
"    \"῾\"           -> \"Ξ\"\n",
"    \"ἁ\"           -> \"Ξα\"\n"]

theorem lines2_ok : Part true lang macros vars (str "rewrite") lines2 (str "rewrite") := by
  apply piece_of
  · dsimp only [lines2]; repeat (first | exact .nil | apply Spells.cons)
  · decide +kernel

def lines3 : List String := [
"    \"ἅ\"           -> \"Ξά\"\n",
"    \"ἑ\"           -> \"Ξε\"\n",
"    \"ἕ\"           -> \"Ξέ\"\n",
"    \"ἡ\"           -> \"Ξη\"\n",
"    \"ἥ\"           -> \"Ξή\"\n",
"    \"ἱ\"           -> \"Ξι\"\n",
"    \"ἵ\"           -> \"Ξί\"\n",
"    \"ὁ\"           -> \"Ξο\"\n",
"    \"ὅ\"           -> \"Ξό\"\n",
"    \"ὑ\"           -> \"Ξυ\"\n"]

theorem lines3_ok : Part true lang macros vars (str "rewrite") lines3 (str "rewrite") := by
  apply piece_of
  · dsimp only [lines3]; repeat (first | exact .nil | apply Spells.cons)
  · decide +kernel

def lines4 : List String := [
"    \"ὕ\"           -> \"Ξύ\"\n",
"    \"ὡ\"           -> \"Ξω\"\n",
"    \"ὥ\"           -> \"Ξώ\"\n",
"    \"αΞ\"          -> \"Ξα\"\n",
"    \"άΞ\"          -> \"Ξά\"\n",
"    \"εΞ\"          -> \"Ξε\"\n",
"    \"έΞ\"          -> \"Ξέ\"\n",
"    \"ηΞ\"          -> \"Ξη\"\n",
"    \"ήΞ\"          -> \"Ξή\"\n",
"    \"ιΞ\"          -> \"Ξι\"\n"]

theorem lines4_ok : Part true lang macros vars (str "rewrite") lines4 (str "rewrite") := by
  apply piece_of
  · dsimp only [lines4]; repeat (first | exact .nil | apply Spells.cons)
  · decide +kernel

def lines5 : List String := [
"    \"ίΞ\"          -> \"Ξί\"\n",
"    \"οΞ\"          -> \"Ξο\"\n",
"    \"όΞ\"          -> \"Ξό\"\n",
"    \"υΞ\"          -> \"Ξυ\"\n",
"    \"ύΞ\"          -> \"Ξύ\"\n",
"    \"ωΞ\"          -> \"Ξω\"\n",
"    \"ώΞ\"          -> \"Ξώ\"\n",
"    \"^υ\"          -> \"Ξυ\"\n",
"    \"^ύ\"          -> \"Ξύ\"\n",
"    \"ου\"          -> \"Υ\"\n"]

theorem lines5_ok : Part true lang macros vars (str "rewrite") lines5 (str "rewrite") := by
  apply piece_of
  · dsimp only [lines5]; repeat (first | exact .nil | apply Spells.cons)
  · decide +kernel

def lines6 : List String := [
"    \"{@}υ\"        -> \"Υ\"\n",
"    \"υι\"          -> \"ι\"\n",
"    \"η\"           -> \"ε\"\n",
"    \"ού\"          -> \"Υ\"\n",
"    \"{@}ύ\"        -> \"Υ\"\n",
"    \"υί\"          -> \"ι\"\n",
"    \"υ\"           -> \"ι\"\n",
"    \"ά\"           -> \"α\"\n",
"    \"έ\"           -> \"ε\"\n",
"    \"ή\"           -> \"ε\"\n"]

theorem lines6_ok : Part true lang macros vars (str "rewrite") lines6 (str "rewrite") := by
  apply piece_of
  · dsimp only [lines6]; repeat (first | exact .nil | apply Spells.cons)
  · decide +kernel

def lines7 : List String := [
"    \"ί\"           -> \"ι\"\n",
"    \"ό\"           -> \"ο\"\n",
"    \"ύ\"           -> \"ι\"\n",
"    \"ω\"           -> \"ο\"\n",
"    \"ώ\"           -> \"ο\"\n",
"    \"ϊ\"           -> \"ι\"\n",
"    \"ϋ\"           -> \"ι\"\n",
"    \"ξ\"           -> \"κσ\"\n",
"    \"ψ\"           -> \"πσ\"\n",
"    \"{@}γ{γ|κ|χ}\" -> \"Ν\"\n"]

theorem lines7_ok : Part true lang macros vars (str "rewrite") lines7 (str "rewrite") := by
  apply piece_of
  · dsimp only [lines7]; repeat (first | exact .nil | apply Spells.cons)
  · decide +kernel

def lines8 : List String := [
"    \"{@}ν{γ|κ|χ}\" -> \"Ν\"\n",
"    \"τζ\"          -> \"ζ\"\n",
"    \"τσ\"          -> \"Τ\"\n",
"    \"ββ\"          -> \"β\"\n",
"    \"γγ\"          -> \"γ\"\n",
"    \"δδ\"          -> \"δ\"\n",
"    \"ζζ\"          -> \"ζ\"\n",
"    \"θθ\"          -> \"θ\"\n",
"    \"κκ\"          -> \"κ\"\n",
"    \"κχ\"          -> \"χ\"\n"]

theorem lines8_ok : Part true lang macros vars (str "rewrite") lines8 (str "rewrite") := by
  apply piece_of
  · dsimp only [lines8]; repeat (first | exact .nil | apply Spells.cons)
  · decide +kernel

def lines9 : List String := [
"    \"λλ\"          -> \"λ\"\n",
"    \"μμ\"          -> \"μ\"\n",
"    \"νν\"          -> \"ν\"\n",
"    \"ππ\"          -> \"π\"\n",
"    \"πφ\"          -> \"φ\"\n",
"    \"ρρ\"          -> \"ρ\"\n",
"    \"σσ\"          -> \"σ\"\n",
"    \"ττ\"          -> \"τ\"\n",
"    \"τθ\"          -> \"θ\"\n",
"    \"φφ\"          -> \"φ\"\n"]

theorem lines9_ok : Part true lang macros vars (str "rewrite") lines9 (str "rewrite") := by
  apply piece_of
  · dsimp only [lines9]; repeat (first | exact .nil | apply Spells.cons)
  · decide +kernel

def lines10 : List String := [
"    \"χχ\"          -> \"χ\"\n",
"    \"^κ\"          -> \"κ;\"\n",
"    \"{<cs>}κ\"     -> \"κ;\"\n",
"    \"κ{<ob>}\"     -> \"κ,\"\n",
"    \"^π\"          -> \"π;\"\n",
"    \"{<cs>}π\"     -> \"π;\"\n",
"    \"π{<ob>}\"     -> \"π,\"\n",
"    \";\"           -> \"\"\n",
"    \"^λ\"          -> \"λ;\"\n",
"    \"^μ\"          -> \"μ;\"\n"]

theorem lines10_ok : Part true lang macros vars (str "rewrite") lines10 (str "rewrite") := by
  apply piece_of
  · dsimp only [lines10]; repeat (first | exact .nil | apply Spells.cons)
  · decide +kernel

def lines11 : List String := [
"    \"^ν\"          -> \"ν;\"\n",
"    \"λ$\"          -> \"λ,\"\n",
"    \"μ$\"          -> \"μ,\"\n",
"    \"ν$\"          -> \"ν,\"\n",
"    \"λ{@|μ,|ν,}\"  -> \"λ;\"\n",
"    \"μ{@}\"        -> \"μ;\"\n",
"    \"ν{@}\"        -> \"ν;\"\n",
"    \"λ\"           -> \"λ,\"\n",
"    \"μ\"           -> \"μ,\"\n",
"    \"ν\"           -> \"ν,\"\n"]

theorem lines11_ok : Part true lang macros vars (str "rewrite") lines11 (str "rewrite") := by
  apply piece_of
  · dsimp only [lines11]; repeat (first | exact .nil | apply Spells.cons)
  · decide +kernel

def lines12 : List String := [
"    \"Ν\"           -> \"Ν,\"\n",
"    \",,\"          -> \",\"\n",
"    \",;\"          -> \"\"\n",
"    \",λ,\"         -> \"λ,\"\n",
"    \",μ,\"         -> \"μ,\"\n",
"    \",ν,\"         -> \"ν,\"\n",
"    \"λ{μ;|ν;}\"    -> \"λ,\"\n",
"    \";\"           -> \"\"\n",
"\n"]

theorem lines12_ok : Part true lang macros vars (str "rewrite") lines12 (str "rewrite") := by
  apply piece_of
  · dsimp only [lines12]; repeat (first | exact .nil | apply Spells.cons)
  · decide +kernel

def lines13 : List String := [
"transcribe:\n",
"    \"β\"    -> \"ㅂ\"\n",
"    \"γ\"    -> \"ㄱ\"\n",
"    \"δ\"    -> \"ㄷ\"\n",
"    \"ζ\"    -> \"ㅈ\"\n",
"    \"θ\"    -> \"ㅌ\"\n",
"    \"κ,\"   -> \"-ㄱ\"\n",
"    \"κ\"    -> \"ㅋ\"\n",
"    \"^λ\"   -> \"ㄹ\"\n",
"    \"{,}λ\" -> \"ㄹ\"\n",
"    \"λ,\"   -> \"-ㄹ\"\n"]

theorem lines13_ok : Part true lang macros vars (str "rewrite") lines13 (str "transcribe") := by
  apply piece_of
  · dsimp only [lines13]; repeat (first | exact .nil | apply Spells.cons)
  · decide +kernel

def lines14 : List String := [
"    \"λ\"    -> \"-ㄹㄹ\"\n",
"    \"μ,\"   -> \"-ㅁ\"\n",
"    \"μ\"    -> \"ㅁ\"\n",
"    \"ν,\"   -> \"-ㄴ\"\n",
"    \"ν\"    -> \"ㄴ\"\n",
"    \"Ν\"    -> \"-ㅇ\"\n",
"    \"π,\"   -> \"-ㅂ\"\n",
"    \"π\"    -> \"ㅍ\"\n",
"    \"ρ\"    -> \"ㄹ\"\n",
"    \"σ\"    -> \"ㅅ\"\n"]

theorem lines14_ok : Part true lang macros vars (str "transcribe") lines14 (str "transcribe") := by
  apply piece_of
  · dsimp only [lines14]; repeat (first | exact .nil | apply Spells.cons)
  · decide +kernel

def lines15 : List String := [
"    \"τ\"    -> \"ㅌ\"\n",
"    \"Τ\"    -> \"ㅊ\"\n",
"    \"φ\"    -> \"ㅍ\"\n",
"    \"χ\"    -> \"ㅋ\"\n",
"    \"Ξ\"    -> \"ㅎ\"\n",
"    \"α\"    -> \"ㅏ\"\n",
"    \"ε\"    -> \"ㅔ\"\n",
"    \"ι\"    -> \"ㅣ\"\n",
"    \"ο\"    -> \"ㅗ\"\n",
"    \"Υ\"    -> \"ㅜ\"\n",
"\n"]

theorem lines15_ok : Part true lang macros vars (str "transcribe") lines15 (str "transcribe") := by
  apply piece_of
  · dsimp only [lines15]; repeat (first | exact .nil | apply Spells.cons)
  · decide +kernel

def lines16 : List String := [
"test:\n",
"    \"Κυβέλη\"       -> \"키벨레\"\n",
"    \"Νίκη\"         -> \"니케\"\n",
"    \"Κροῖσος\"      -> \"크로이소스\"\n",
"    \"Δαρδανέλλια\"  -> \"다르다넬리아\"\n",
"    \"Τυφών\"        -> \"티폰\"\n",
"    \"Ἀχέρων\"       -> \"아케론\"\n",
"    \"Εὔβοια\"       -> \"에우보이아\"\n",
"    \"Μυκήνη\"       -> \"미케네\"\n",
"    \"Δωρίς\"        -> \"도리스\"\n",
"    \"Ἀκρόπολις\"    -> \"아크로폴리스\"\n",
"    \"Ἑρμιόνη\"      -> \"헤르미오네\"\n",
"    \"Ἀρτεμίς\"      -> \"아르테미스\"\n",
"    \"Ζήνων\"        -> \"제논\"\n",
"    \"Ποσειδῶν\"     -> \"포세이돈\"\n",
"    \"Ἄργος\"        -> \"아르고스\"\n",
"    \"Ἄτλας\"        -> \"아틀라스\"\n",
"    \"Βοιωτία\"      -> \"보이오티아\"\n",
"    \"Σαλαμίς\"      -> \"살라미스\"\n",
"    \"Πυθαγόρας\"    -> \"피타고라스\"\n",
"    \"Γανυμήδης\"    -> \"가니메데스\"\n",
"    \"Εὐρυδίκη\"     -> \"에우리디케\"\n",
"    \"Ἄτταλος\"      -> \"아탈로스\"\n",
"    \"Πάππος\"       -> \"파포스\"\n",
"    \"Θουκυδίδης\"   -> \"투키디데스\"\n",
"    \"Πανδώρα\"      -> \"판도라\"\n",
"    \"Διόνυσος\"     -> \"디오니소스\"\n",
"    \"Ἑλλάς\"        -> \"헬라스\"\n",
"    \"Ὕπνος\"        -> \"히프노스\"\n",
"    \"Ἀττική\"       -> \"아티케\"\n",
"    \"Πηνελόπη\"     -> \"페넬로페\"\n",
"    \"Δαμασκός\"     -> \"다마스코스\"\n",
"    \"Στύξ\"         -> \"스틱스\"\n",
"    \"Ἠώς\"          -> \"에오스\"\n",
"    \"Ἀπολλώνιος\"   -> \"아폴로니오스\"\n",
"    \"Σόλων\"        -> \"솔론\"\n",
"    \"Ἱππολύτη\"     -> \"히폴리테\"\n",
"    \"Ὅμηρος\"       -> \"호메로스\"\n",
"    \"Τυῤῥηνία\"     -> \"티레니아\"\n",
"    \"Ἀναξαγόρας\"   -> \"아낙사고라스\"\n",
"    \"Περσεύς\"      -> \"페르세우스\"\n",
"    \"Σφίγξ\"        -> \"스핑크스\"\n",
"    \"Ἑστία\"        -> \"헤스티아\"\n",
"    \"Ἀντιόχεια\"    -> \"안티오케이아\"\n",
"    \"Ἀφροδίτη\"     -> \"아프로디테\"\n",
"    \"Πρωτεύς\"      -> \"프로테우스\"\n",
"    \"Πλούταρχος\"   -> \"플루타르코스\"\n",
"    \"Ὠκεανία\"      -> \"오케아니아\"\n",
"    \"Θῆβαι\"        -> \"테바이\"\n",
"    \"Χίμαιρα\"      -> \"키마이라\"\n",
"    \"Δαλματία\"     -> \"달마티아\"\n",
"    \"Πενθεσίλεια\"  -> \"펜테실레이아\"\n",
"    \"Ἥρα\"          -> \"헤라\"\n",
"    \"Νέμεσις\"      -> \"네메시스\"\n",
"    \"Ἀμαζόνες\"     -> \"아마조네스\"\n",
"    \"Νηρεύς\"       -> \"네레우스\"\n",
"    \"Αἴας\"         -> \"아이아스\"\n",
"    \"Μορφεύς\"      -> \"모르페우스\"\n",
"    \"Θάνατος\"      -> \"타나토스\"\n",
"    \"Ὦξος\"         -> \"옥소스\"\n",
"    \"Θερμοπύλαι\"   -> \"테르모필라이\"\n",
"    \"Στράβων\"      -> \"스트라본\"\n",
"    \"Φρυγία\"       -> \"프리기아\"\n",
"    \"Φοίβη\"        -> \"포이베\"\n",
"    \"Ἀπόλλων\"      -> \"아폴론\"\n",
"    \"Ἑλλήσποντος\"  -> \"헬레스폰토스\"\n",
"    \"Χρόνος\"       -> \"크로노스\"\n",
"    \"Λυκοῦργος\"    -> \"리쿠르고스\"\n",
"    \"Βορέας\"       -> \"보레아스\"\n",
"    \"Ἄρης\"         -> \"아레스\"\n",
"    \"Ἐρατοσθένης\"  -> \"에라토스테네스\"\n",
"    \"Ἀνδρομάχη\"    -> \"안드로마케\"\n",
"    \"Ἶρις\"         -> \"이리스\"\n",
"    \"Ὀδυσσεύς\"     -> \"오디세우스\"\n",
"    \"Ἀτλάντις\"     -> \"아틀란티스\"\n",
"    \"Καλλιόπη\"     -> \"칼리오페\"\n",
"    \"Σκύθαι\"       -> \"스키타이\"\n",
"    \"Περικλῆς\"     -> \"페리클레스\"\n",
"    \"Ἡρόδοτος\"     -> \"헤로도토스\"\n",
"    \"Ζέφυρος\"      -> \"제피로스\"\n",
"    \"Αἴγυπτος\"     -> \"아이깁토스\"\n",
"    \"Οὐρανός\"      -> \"우라노스\"\n",
"    \"Πέργαμον\"     -> \"페르가몬\"\n",
"    \"Κέρβερος\"     -> \"케르베로스\"\n",
"    \"Ἀντιγόνη\"     -> \"안티고네\"\n",
"    \"όμφαλος\"      -> \"옴팔로스\"\n",
"    \"Μέδουσα\"      -> \"메두사\"\n",
"    \"Ἀχελῷος\"      -> \"아켈로오스\"\n",
"    \"Δεκάπολις\"    -> \"데카폴리스\"\n"]

theorem lines16_ok : Part true lang macros vars (str "transcribe") lines16 (str "test") := by
  apply piece_of
  · dsimp only [lines16]; repeat (first | exact .nil | apply Spells.cons)
  · decide +kernel

end Verif.Specs.Grc
