import Verif.Specs.DeuPart1
import Verif.Specs.DeuPart2

/-! specs/deu.hsl, generated by tools/gen_specs.py. -/

set_option Elab.async false

namespace Verif.Specs.Deu

open Hsl

/-- The lines of the file. -/
def lines : List String := head ++ (lines1 ++ (lines2 ++ (lines3 ++ (lines4 ++ (lines5 ++ (lines6 ++ (lines7 ++ (lines8 ++ (lines9 ++ (lines10 ++ (lines11 ++ (lines12 ++ (lines13 ++ (lines14 ++ (lines15 ++ (lines16 ++ (lines17 ++ (lines18 ++ (lines19 ++ (lines20 ++ (lines21)))))))))))))))))))))

/-- The file is a spec with checked rules. -/
theorem sound : Sound (text lines) lang := sound_of head_ok (lines1_ok.append (lines2_ok.append (lines3_ok.append (lines4_ok.append (lines5_ok.append (lines6_ok.append (lines7_ok.append (lines8_ok.append (lines9_ok.append (lines10_ok.append (lines11_ok.append (lines12_ok.append (lines13_ok.append (lines14_ok.append (lines15_ok.append (lines16_ok.append (lines17_ok.append (lines18_ok.append (lines19_ok.append (lines20_ok.append (lines21_ok))))))))))))))))))))) (by decide +kernel)

end Verif.Specs.Deu
