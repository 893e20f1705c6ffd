import Verif.Specs.NldPart1
import Verif.Specs.NldPart2
import Verif.Specs.NldPart3
import Verif.Specs.NldPart4
import Verif.Specs.NldPart5
import Verif.Specs.NldPart6

/-! specs/nld.hsl, generated by tools/gen_specs.py. -/

set_option Elab.async false

namespace Verif.Specs.Nld

open Hsl

/-- The lines of the file. -/
def lines : List String := head ++ (lines1 ++ (lines2 ++ (lines3 ++ (lines4 ++ (lines5 ++ (lines6 ++ (lines7 ++ (lines8 ++ (lines9 ++ (lines10 ++ (lines11 ++ (lines12 ++ (lines13 ++ (lines14 ++ (lines15 ++ (lines16 ++ (lines17 ++ (lines18 ++ (lines19 ++ (lines20 ++ (lines21 ++ (lines22 ++ (lines23 ++ (lines24 ++ (lines25 ++ (lines26 ++ (lines27 ++ (lines28 ++ (lines29 ++ (lines30 ++ (lines31 ++ (lines32 ++ (lines33 ++ (lines34 ++ (lines35 ++ (lines36 ++ (lines37 ++ (lines38 ++ (lines39 ++ (lines40 ++ (lines41 ++ (lines42 ++ (lines43 ++ (lines44 ++ (lines45 ++ (lines46 ++ (lines47 ++ (lines48 ++ (lines49 ++ (lines50 ++ (lines51 ++ (lines52 ++ (lines53 ++ (lines54 ++ (lines55 ++ (lines56 ++ (lines57 ++ (lines58 ++ (lines59 ++ (lines60 ++ (lines61 ++ (lines62 ++ (lines63 ++ (lines64 ++ (lines65 ++ (lines66 ++ (lines67 ++ (lines68 ++ (lines69 ++ (lines70 ++ (lines71 ++ (lines72 ++ (lines73 ++ (lines74 ++ (lines75 ++ (lines76 ++ (lines77 ++ (lines78 ++ (lines79 ++ (lines80 ++ (lines81)))))))))))))))))))))))))))))))))))))))))))))))))))))))))))))))))))))))))))))))))

/-- The file is a spec with checked rules. -/
theorem sound : Sound (text lines) lang := sound_of head_ok (lines1_ok.append (lines2_ok.append (lines3_ok.append (lines4_ok.append (lines5_ok.append (lines6_ok.append (lines7_ok.append (lines8_ok.append (lines9_ok.append (lines10_ok.append (lines11_ok.append (lines12_ok.append (lines13_ok.append (lines14_ok.append (lines15_ok.append (lines16_ok.append (lines17_ok.append (lines18_ok.append (lines19_ok.append (lines20_ok.append (lines21_ok.append (lines22_ok.append (lines23_ok.append (lines24_ok.append (lines25_ok.append (lines26_ok.append (lines27_ok.append (lines28_ok.append (lines29_ok.append (lines30_ok.append (lines31_ok.append (lines32_ok.append (lines33_ok.append (lines34_ok.append (lines35_ok.append (lines36_ok.append (lines37_ok.append (lines38_ok.append (lines39_ok.append (lines40_ok.append (lines41_ok.append (lines42_ok.append (lines43_ok.append (lines44_ok.append (lines45_ok.append (lines46_ok.append (lines47_ok.append (lines48_ok.append (lines49_ok.append (lines50_ok.append (lines51_ok.append (lines52_ok.append (lines53_ok.append (lines54_ok.append (lines55_ok.append (lines56_ok.append (lines57_ok.append (lines58_ok.append (lines59_ok.append (lines60_ok.append (lines61_ok.append (lines62_ok.append (lines63_ok.append (lines64_ok.append (lines65_ok.append (lines66_ok.append (lines67_ok.append (lines68_ok.append (lines69_ok.append (lines70_ok.append (lines71_ok.append (lines72_ok.append (lines73_ok.append (lines74_ok.append (lines75_ok.append (lines76_ok.append (lines77_ok.append (lines78_ok.append (lines79_ok.append (lines80_ok.append (lines81_ok))))))))))))))))))))))))))))))))))))))))))))))))))))))))))))))))))))))))))))))))) (by decide +kernel)

end Verif.Specs.Nld
