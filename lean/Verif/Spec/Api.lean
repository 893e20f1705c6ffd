import Verif.Model.Api

/-! Vocabulary for statements about the API. -/

namespace Verif.Spec.Api

/-! ## Registries -/

/-- A change of a translit registry. -/
inductive RegOp
  | use (t : Translit)
  | unuse (scheme : Bytes)

/-- After these changes a translit is registered for a scheme: it is the first one used since the last removal. -/
def Holds (ops : List RegOp) (scheme : Bytes) (t : Translit) : Prop :=
  t.scheme = scheme ∧ ∃ before after, ops = before ++ .use t :: after ∧ .unuse scheme ∉ after ∧
    ∀ x t' y, before = x ++ .use t' :: y → t'.scheme = scheme → .unuse scheme ∈ y

/-- The changes of a registry among the calls of a program, with what they returned: a call that returned a boolean. -/
def changesOf (who : Option Nat) : List Call → List Res → List RegOp
  | .useTranslit who' t :: cs, .bool _ :: rs =>
    if who' = who then .use t :: changesOf who cs rs else changesOf who cs rs
  | .unuseTranslit who' s :: cs, .bool _ :: rs =>
    if who' = who then .unuse s :: changesOf who cs rs else changesOf who cs rs
  | _ :: cs, _ :: rs => changesOf who cs rs
  | _, _ => []

/-- Whom a call is on: a hangulizer or the package (`none`). -/
def owner : Call → Option (Option Nat)
  | .loadSpec .. => some none
  | .unloadSpec .. => some none
  | .hangulize .. => some none
  | .new .. => none
  | .useTranslit who _ => some who
  | .unuseTranslit who _ => some who
  | .translits who => some who
  | .trace h _ => some (some h)
  | .run h _ => some (some h)
  | .userSet .. => none
  | .userDelete .. => none

/-- What a call returns, without the state it leaves. -/
def returns (x : Go (World × Res)) : Go Res := x.bind fun p => .ok p.2

/-- The orders of iteration in a call are possible ones. -/
def OrdOk : Call → Prop
  | .loadSpec o _ => o.Ok
  | .hangulize o _ _ => o.Ok
  | _ => True

/-! ## Translits -/

/-- Applying the translits of the schemes from left to right: the word they give, or the error of the first one
which is missing or fails. -/
inductive Applied (translits : Registry) : List Bytes → Bytes → Bytes ⊕ Err → Prop
  | done (w : Bytes) : Applied translits [] w (.inl w)
  | next {s : Bytes} {ss : List Bytes} {w w' : Bytes} {r : Bytes ⊕ Err} {t : Translit}
      (found : translits.lookup s = some t) (works : t.transliterate w = .ok w')
      (rest : Applied translits ss w' r) : Applied translits (s :: ss) w r
  | missing {s : Bytes} {ss : List Bytes} {w : Bytes} (missing : translits.lookup s = none) :
      Applied translits (s :: ss) w (.inr .translitNotImported)
  | fails {s : Bytes} {ss : List Bytes} {w : Bytes} {t : Translit} {e : Err}
      (found : translits.lookup s = some t) (fails : t.transliterate w = .err e) :
      Applied translits (s :: ss) w (.inr .translit)

end Verif.Spec.Api
