import Verif.Model.Workers

/-! # What the page asks of its workers -/

namespace Verif.Spec.Workers

open Verif.Workers

/-- The calls of the page for the worker for hangulize. -/
def requests (es : List Event) : List Verif.Workers.Call :=
  es.filterMap fun
    | .call c => some c
    | _ => none

/-- The calls for transliterations by a module. -/
def asks (name : Bytes) (es : List Event) : List (Bytes × Bytes) :=
  es.filterMap fun
    | .ask method word => if Wasm.normalizeMethod method = name then some (method, word) else none
    | _ => none

/-- The words to transliterate among the messages for a worker. -/
def words (inbox : List TCall) : List (Bytes × Bytes) :=
  inbox.filterMap fun
    | .load _ => none
    | .transliterate method word => some (method, word)

/-- What the calls of the worker for hangulize are for its module: a translit is registered as the function of its method, and in between
the Promises of such functions are settled. -/
inductive Performs (fn : Bytes → Nat) : List Verif.Workers.Call → List Wasm.Event → Prop
  | nil : Performs fn [] []
  | useTranslit {cs : List Verif.Workers.Call} {es : List Wasm.Event} (method : Bytes) (h : Performs fn cs es) :
      Performs fn (.useTranslit method :: cs) (.useTranslit [Js.ofText method, .func (fn method)] :: es)
  | hangulize {cs : List Verif.Workers.Call} {es : List Wasm.Event} (lang word : Bytes) (o : Ord)
      (visit : List (Bytes × Js.Value) → List (Bytes × Js.Value)) (args : List Js.Value) (h : Performs fn cs es) :
      Performs fn (.hangulize lang word :: cs) (.hangulize o visit args :: es)
  | getVersion {cs : List Verif.Workers.Call} {es : List Wasm.Event} (h : Performs fn cs es) : Performs fn (.getVersion :: cs) es
  | getSpecs {cs : List Verif.Workers.Call} {es : List Wasm.Event} (h : Performs fn cs es) : Performs fn (.getSpecs :: cs) es
  | settle {cs : List Verif.Workers.Call} {es : List Wasm.Event} (ask : Nat) (r : Js.Value ⊕ Js.Value) (h : Performs fn cs es) :
      Performs fn cs (.settle ask r :: es)

end Verif.Spec.Workers
