import Verif.Go.Unicode

/-! Vocabulary for statements about Chinese text. -/

namespace Verif.Spec.Chinese

/-- Of two pieces of text one has an entry of the dictionary next to the other one. -/
def Beside (dict : Rune → List Bytes) (p q : List Rune) : Prop :=
  (∃ c ∈ p.getLast?, dict c ≠ []) ∨ ∃ c ∈ q.head?, dict c ≠ []

end Verif.Spec.Chinese
