import Verif.Go.Basic

/-! Vocabulary for statements about replacing several strings at once. -/

namespace Verif.Spec.Strings

/-- No key is a prefix of another one (so the keys are also distinct). -/
def PrefixFree {α : Type} (pairs : List (Bytes × α)) : Prop :=
  pairs.Pairwise fun p q => ¬ p.1 <+: q.1 ∧ ¬ q.1 <+: p.1

end Verif.Spec.Strings
