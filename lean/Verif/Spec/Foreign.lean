import Verif.Spec.Signs
import Verif.Spec.Reference

/-! Vocabulary for statements about text of other scripts. -/

namespace Verif.Spec.Foreign

open Verif.Spec.Reference

/-- A letter which has no meaning for a spec, is not normalized and is not a zero width space. -/
def Strange (sp : Spec) (c : Rune) : Prop :=
  ¬ Meaningful sp c ∧ (∀ p ∈ sp.normalize, encodeRune c ∉ p.2) ∧ c ≠ 0x200B

/-- None of the signs of a language. -/
def Signless (sp : Spec) (cs : List Rune) : Prop := ∀ s ∈ signs sp.lang.id, ¬ s <:+: cs

/-- A text which is empty or ends with a letter of the script or white space. -/
def Closed (sp : Spec) (a : Bytes) : Prop :=
  a = [] ∨ ∃ a' c, a = a' ++ encodeRune c ∧ validRune c = true ∧ (sp.script.is c = true ∨ Unicode.isSpace c = true)

/-- A text which is empty or begins with a letter of the script or white space. -/
def Open (sp : Spec) (b : Bytes) : Prop :=
  b = [] ∨ ∃ b' c, b = encodeRune c ++ b' ∧ validRune c = true ∧ (sp.script.is c = true ∨ Unicode.isSpace c = true)

/-- White space becomes single spaces. -/
def squeezed : List Rune → List Rune
  | [] => []
  | c :: cs =>
    if Unicode.isSpace c = true then
      if ∃ d ∈ cs.head?, Unicode.isSpace d = true then squeezed cs else 0x20 :: squeezed cs
    else c :: squeezed cs

end Verif.Spec.Foreign
