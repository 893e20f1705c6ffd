import Verif.Spec.Api
import Verif.Spec.Translit
import Verif.Model.Standard
import Verif.Specs.All

/-! Vocabulary for statements about the bundled specs. -/

namespace Verif.Spec.Bundle

open Verif.Spec.Api Verif.Specs

/-- A translit which always returns: it neither panics nor loops. -/
def Returns (t : Translit) : Prop := ∀ w, t.transliterate w ≠ .panic ∧ t.transliterate w ≠ .hang

/-- A spec as `LoadSpec` returns it. -/
def Loaded (files : Files) (sp : Spec) : Prop :=
  ∃ lang src o, files lang = some src ∧ o.Ok ∧ parseSpec o src = .ok sp

/-- A call whose arguments are fine: possible orders of iteration, translits which return, and specs of `LoadSpec`. -/
def Fair (files : Files) : Call → Prop
  | .loadSpec o _ => o.Ok
  | .hangulize o _ _ => o.Ok
  | .new sp => Loaded files sp
  | .useTranslit _ t => Returns t
  | .userSet _ _ t => Returns t
  | _ => True

/-- The tokens of Kagome have all features, and their pronunciations are UTF-8. -/
def Reliable (l : Libraries) : Prop :=
  ∀ word, ∀ t ∈ Translit.real (l.tokenize word), Translit.Complete t ∧ ValidUtf8 (Translit.pronunciation t)

end Verif.Spec.Bundle
