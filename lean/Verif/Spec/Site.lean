import Verif.Model.Site
import Verif.Spec.App
import Mathlib.Data.List.Forall2

/-! # What the examples and the list of languages are to show -/

namespace Verif.Spec.Site

open Verif.Js Verif.Spec.Bundle Verif.Specs

/-- Up to five examples, each as often as there is one. -/
def Drawn (all shown : List Str) : Prop := shown.length = min 5 all.length ∧ ∃ rest, (shown ++ rest).Perm all

/-- The words of the examples of the bundled specs, as the page has them; there are none for other languages. -/
def Describes (tests : Str → List Str) : Prop :=
  (∀ lang ∈ listLangs entries, ∃ src o sp, bundled lang = some src ∧ Ord.Ok o ∧ parseSpec o src = .ok sp ∧
    tests (decodeText lang) = sp.test.map fun e => decodeText e.1) ∧
  ∀ lang ∉ App.languages, tests lang = []

/-- The examples are those of the language: there is no effect and no rendering left. -/
def Still (x : Verif.Site.Examples) : Prop := x.due = false ∧ x.words = x.next

/-- The user changes neither the address nor the input. -/
def Quiet : Verif.Site.Event → Prop
  | .type .. | .select .. | .follow .. | .goto .. => False
  | _ => True

/-- Identifiers and Korean names of the bundled specs, in any order. -/
def Listing (specs : List (Str × Str)) : Prop :=
  ∃ langs : List Bytes, langs.Perm (listLangs entries) ∧ List.Forall₂ (fun lang x => ∃ src o sp, bundled lang = some src ∧ Ord.Ok o ∧
    parseSpec o src = .ok sp ∧ x = (decodeText sp.lang.id, decodeText sp.lang.korean)) langs specs

end Verif.Spec.Site
