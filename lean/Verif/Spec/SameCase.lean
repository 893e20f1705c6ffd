import Verif.Go.Unicode

/-!
# Words which differ in case

Specification for C80.
-/

namespace Verif.Spec.Case

/-- Two characters which differ at most in their case, given the letters of a script and those whose case matters. -/
def Same (is : Rune → Bool) (irr : List Rune) (a b : Rune) : Prop :=
  a = b ∨ (is a = true ∧ a ∉ irr ∧ b = Unicode.toLower a) ∨ (is b = true ∧ b ∉ irr ∧ a = Unicode.toLower b)

/-- Two words which differ at most in the case of letters. -/
inductive SameWords (is : Rune → Bool) (irr : List Rune) : List Rune → List Rune → Prop
  | nil : SameWords is irr [] []
  | cons {a b : Rune} {v w : List Rune} : Same is irr a b → SameWords is irr v w → SameWords is irr (a :: v) (b :: w)

end Verif.Spec.Case
