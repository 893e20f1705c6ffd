import Verif.Model.Address
import Verif.Model.Hook

/-!
# Model of `App` (web/src/components/App.tsx)

The address of the page (`Model/Address`) and the hook (`Model/Hook`) put together.  The specs are objects with a key for each
listed language, whose prototype is the one of all objects; they are the same in `manifest.json` and in the module (C71, C74).  An
exception in a rendering or an effect empties the page, since it has no error boundary.
-/

namespace Verif.App

open Verif.Js (Str)
open Verif.Hook (Input Hook)
open Verif.Address (lit)

/-- White space and line terminators of ECMAScript, as trimmed by `String.prototype.trim`. -/
def white (u : Nat) : Bool :=
  decide (u ∈ [0x09, 0x0A, 0x0B, 0x0C, 0x0D, 0x20, 0xA0, 0x1680, 0x2028, 0x2029, 0x202F, 0x205F, 0x3000, 0xFEFF]) ||
    decide (0x2000 ≤ u ∧ u ≤ 0x200A)

/-- The properties of `Object.prototype`. -/
def inherited : List Str :=
  [lit "constructor", lit "__defineGetter__", lit "__defineSetter__", lit "hasOwnProperty", lit "__lookupGetter__",
    lit "__lookupSetter__", lit "isPrototypeOf", lit "propertyIsEnumerable", lit "toString", lit "valueOf", lit "__proto__",
    lit "toLocaleString"]

/-- `specs[lang] !== undefined`. -/
def known (langs : List Str) (lang : Str) : Bool := decide (lang ∈ langs) || decide (lang ∈ inherited)

/-- web/src/hangulize/useHangulize.ts:34-52 `isValidInput`. -/
def valid (langs : List Str) (x : Input) : Bool := x.word.any (fun u => !white u) && known langs x.lang

/-- The page: its address, the language of the last rendering, the hook, the dependencies with which the effect of App.tsx:77-79 ran
last, and whether an exception has emptied it. -/
structure App where
  page : Address.Page
  lang : Str
  hook : Hook
  asked : Option Input
  broken : Bool

/-- App.tsx:39-40: what the page asks for. -/
def App.current (a : App) : Input := ⟨a.lang, a.page.word⟩

/-- App.tsx:38-45: a rendering, with a random language if the address has none. -/
def App.render (langs : List Str) (random : Str) (a : App) : App :=
  let lang := a.page.lang.getD random
  { a with lang := lang, broken := !known langs lang }

/-- The first rendering. -/
def openApp (langs : List Str) (search : Bytes) (random : Str) : App :=
  App.render langs random ⟨Address.openPage search, [], Hook.init, none, false⟩

/-- What may happen: something happens to the address, and the page is rendered; the effect of App.tsx:77-79 runs; something happens
to the hook. -/
inductive Event
  | address (e : Address.Event) (random : Str)
  | ask
  | hook (e : Hook.Event) (random : Str)
  deriving DecidableEq, Repr

/-- What an event does; nothing if it cannot happen.  The effect of App.tsx:47-69 is no event if it changes nothing. -/
def App.step (langs : List Str) (a : App) : Event → Option App
  | .address (.effect lang word) random =>
    if a.broken || decide (lang ≠ a.lang) then none
    else if !a.page.params.has (lit "word") && !decide (a.lang ∈ langs) then some { a with broken := true }
    else
      let page := a.page.step (.effect lang word)
      if page = a.page then none else some (App.render langs random { a with page := page })
  | .address e random => if a.broken then none else some (App.render langs random { a with page := a.page.step e })
  | .ask =>
    if a.broken || decide (a.asked = some a.current) then none
    else (a.hook.step (valid langs) (.input a.current)).map fun hook => { a with hook := hook, asked := some a.current }
  | .hook (.input _) _ => none
  | .hook e random =>
    if a.broken then none
    else (a.hook.step (valid langs) e).map fun hook =>
      if e = .render then App.render langs random { a with hook := hook } else { a with hook := hook }

/-- A sequence of events. -/
def App.steps (langs : List Str) (a : App) : List Event → Option App
  | [] => some a
  | e :: es => (a.step langs e).bind fun a => a.steps langs es

/-- App.tsx:14-32 `determineLoadingResult`. -/
def loadingResult (langs : List Str) (v : Hook.View) (x : Input) : Bool × Str :=
  if valid langs x = false then (false, [])
  else if v.result = [] then (true, [0x2026])
  else if v.phase = .delayed then (true, v.result)
  else (false, v.result)

/-- App.tsx:81, 101: whether the page is loading and the result it shows; nothing if it is empty. -/
def App.view (langs : List Str) (a : App) : Option (Bool × Str) :=
  if a.broken then none else some (loadingResult langs a.hook.shown a.current)

end Verif.App
