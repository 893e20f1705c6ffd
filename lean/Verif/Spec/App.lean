import Verif.Model.App
import Verif.Spec.Wasm
import Verif.Spec.Bundle

/-! # What the web page is to show -/

namespace Verif.Spec.App

open Verif.Js Verif.Wasm Verif.Spec.Wasm Verif.Spec.Bundle Verif.Specs

/-- What `worker.hangulize` resolves with (web/src/hangulize/hangulize.worker.ts:34-37), or the empty text if the Promise is rejected
(useHangulize.ts:171-172). -/
def textOf : Status → Str
  | .resolved (.string s) => s
  | _ => []

/-- The worker may answer a text to an input: its module was started, the workers of the translits were registered before the call, and
the call does not wait any more. -/
def Replies (l : Libraries) (x : Hook.Input) (r : Str) : Prop :=
  ∃ (o o' : Ord) (specs : Value) (ready q : Page) (answers : Answers) (before after : List Event)
    (visit : List (Bytes × Value) → List (Bytes × Value)) (t : Task),
    o.Ok ∧ main bundled o (listLangs entries) = .ok (specs, ready) ∧
    (∀ e ∈ before ++ .hangulize o' visit [.string x.lang, .string x.word, .undefined] :: after, EventOk e) ∧
    Faithful bundled ready answers (before ++ .hangulize o' visit [.string x.lang, .string x.word, .undefined] :: after) ∧
    run bundled ready (before ++ .hangulize o' visit [.string x.lang, .string x.word, .undefined] :: after) = .ok q ∧
    Workers l answers (registered answers before) ∧ q.tasks[before.countP IsCall]? = some t ∧ (∀ ask, ¬ Pending t ask) ∧
    r = textOf t.status

/-- The listed languages, as keys of the specs. -/
def languages : List Str := (listLangs entries).map decodeText

/-- The user does nothing. -/
def Automatic : App.Event → Prop
  | .address (.effect ..) _ | .ask => True
  | .address .. => False
  | .hook e _ => match e with | .input _ => False | .specs => False | _ => True

end Verif.Spec.App
