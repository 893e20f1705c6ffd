import Verif.Model.Zoom

/-! # The largest size in which a text fits -/

namespace Verif.Spec.Zoom

open Verif.Zoom

/-- Smaller sizes fit where larger ones do. -/
def Falling (layout : Option (Int → Bool)) : Prop :=
  ∀ fits, layout = some fits → ∀ a b : Int, a ≤ b → fits b = true → fits a = true

/-- The layout which an event brings about. -/
def layoutOf : Event → Option (Option (Int → Bool))
  | .text l | .resize l => some l
  | .loading | .render => none

/-- The layout after some events. -/
def layoutAfter (es : List Event) : Option (Int → Bool) := (es.filterMap layoutOf).getLast?.join

/-- The largest of `n` sizes which fits, or the smallest size if none does. -/
def Best (n : Nat) (fits : Int → Bool) (m : Int) : Prop :=
  0 ≤ m ∧ m < n ∧ (∀ k : Int, m < k → k < n → fits k = false) ∧ (fits m = true ∨ ∀ k : Int, 0 ≤ k → k < n → fits k = false)

end Verif.Spec.Zoom
