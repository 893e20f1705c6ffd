import Verif.Spec.Api
import Verif.Spec.Strings

/-!
# Programs run twice

Two runs of one program differ in the orders of iteration over maps.
-/

namespace Verif.Spec.Order

/-- Both missing, or both there and related. -/
inductive Both {α : Type} (R : α → α → Prop) : Option α → Option α → Prop
  | none : Both R none none
  | some {a b : α} (h : R a b) : Both R (some a) (some b)

/-- Lists of the same length with related elements. -/
inductive Alike {α : Type} (R : α → α → Prop) : List α → List α → Prop
  | nil : Alike R [] []
  | cons {a b : α} {as bs : List α} (h : R a b) (t : Alike R as bs) : Alike R (a :: as) (b :: bs)

/-- Two specs which are loaded for one language. -/
def Twins (files : Files) (sp sp' : Spec) : Prop :=
  ∃ lang src o o', files lang = some src ∧ o.Ok ∧ o'.Ok ∧ parseSpec o src = .ok sp ∧ parseSpec o' src = .ok sp'

/-- The same call in another run. -/
def SameCall (files : Files) : Call → Call → Prop
  | .loadSpec o lang, .loadSpec o' lang' => o.Ok ∧ o'.Ok ∧ lang' = lang
  | .hangulize o lang word, .hangulize o' lang' word' => o.Ok ∧ o'.Ok ∧ lang' = lang ∧ word' = word
  | .new sp, .new sp' => Twins files sp sp'
  | c, c' => c' = c

/-- The same result in another run. -/
def SameRes (files : Files) : Res → Res → Prop
  | .spec (.inl sp), .spec (.inl sp') => Twins files sp sp'
  | r, r' => r' = r

end Verif.Spec.Order
