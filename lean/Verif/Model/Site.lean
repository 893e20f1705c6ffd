import Verif.Model.App

/-!
# Model of the examples, the prompt and the list of languages (web/src/components/Examples.tsx, Prompt.tsx, SelectLanguage.tsx)

React renders a component after its parent was rendered or one of its states was set, and runs the effects of a rendering before the
next one.  The specs are the same in `manifest.json` and in the module (C71, C74), but their order may differ.  The search in the list
of languages is in `Verif.Model.Search`.
-/

namespace Verif.Site

open Verif.Js (Str)
open Verif.App (App known inherited)
open Verif.Address (lit)

/-! ## lodash -/

/-- `_.sample`: a random element, if there is any. -/
def sample {α : Type} (r : Nat) (xs : List α) : Option α := xs[r % xs.length]?

/-- `_.sampleSize`: each place in turn is exchanged with a random one which is not before it. -/
def sampleSize {α : Type} : Nat → List Nat → List α → List α
  | 0, _, _ => []
  | _, _, [] => []
  | n + 1, rs, x :: xs =>
    match rs.headD 0 % (xs.length + 1) with
    | 0 => x :: sampleSize n rs.tail xs
    | k + 1 => xs.getD k x :: sampleSize n rs.tail (xs.set k x)

/-- `_.sortBy` for texts: the sort is stable, and texts are compared by their code units. -/
def sortBy {α : Type} (key : α → Str) (xs : List α) : List α := xs.mergeSort fun a b => decide (key a ≤ key b)

/-! ## The examples -/

/-- web/src/components/Examples.tsx:13-23: the property `lang` of the last rendering, the words of the state `examples` which it had
and of the next one, the ref `prevLang`, and whether the effect of the last rendering is still to run. -/
structure Examples where
  lang : Str
  words : List Str
  next : List Str
  prev : Str
  due : Bool
  deriving DecidableEq, Repr

/-- Examples.tsx:14, 23: the first rendering. -/
def Examples.init (lang : Str) : Examples := ⟨lang, [], [], [], true⟩

/-- A rendering. -/
def Examples.render (x : Examples) (lang : Str) : Examples := { x with lang := lang, words := x.next, due := true }

/-- Examples.tsx:16-21 `shuffle` of the last rendering. -/
def Examples.shuffle (langs : List Str) (tests : Str → List Str) (rs : List Nat) (x : Examples) : Examples :=
  if known langs x.lang then { x with next := sampleSize 5 rs (tests x.lang) } else x

/-- Examples.tsx:24-30: the effect. -/
def Examples.effect (langs : List Str) (tests : Str → List Str) (rs : List Nat) (x : Examples) : Examples :=
  let x := if x.prev ≠ x.lang then { x.shuffle langs tests rs with prev := x.lang } else x
  { x with due := false }

/-! ## The list of languages -/

/-- SelectLanguage.tsx:10-35: an option without what is searched. -/
structure Choice where
  key : Str
  value : Str
  flag : Option Str
  text : Str
  deriving DecidableEq, Repr

/-- web/src/components/flags.json:1-42. -/
def flags : List (Str × Str) :=
  [("aze", "az"), ("bel", "by"), ("bul", "bg"), ("cat", ""), ("ces", "cz"), ("chi", "cn"), ("cym", "gb wls"), ("deu", "de"), ("ell", "gr"),
    ("epo", ""), ("est", "ee"), ("fin", "fi"), ("grc", "gr"), ("hbs", ""), ("hun", "hu"), ("isl", "is"), ("ita", "it"), ("jpn", "jp"),
    ("jpn-ck", "jp"), ("kat-1", "ge"), ("kat-2", "ge"), ("lat", ""), ("lav", "lv"), ("lit", "lt"), ("mkd", "mk"), ("nld", "nl"), ("pol", "pl"),
    ("por", "pt"), ("por-br", "br"), ("ron", "ro"), ("rus", "ru"), ("slk", "sk"), ("slv", "si"), ("spa", "es"), ("sqi", "al"), ("swe", "se"),
    ("tur", "tr"), ("ukr", "ua"), ("vie", "vn"), ("wlm", "gb wls")].map fun x => (lit x.1, lit x.2)

/-- SelectLanguage.tsx:47-74: the options for specs, each given by `lang.id` and `lang.korean`. -/
def choices (specs : List (Str × Str)) : List Choice :=
  (sortBy (·.2) specs).map fun s => ⟨s.1, s.1, flags.lookup s.1, s.2⟩

/-! ## The page -/

/-- The page and its examples. -/
structure Site where
  app : App
  examples : Examples

/-- The first rendering. -/
def openSite (langs : List Str) (search : Bytes) (random : Str) : Site :=
  let a := App.openApp langs search random
  ⟨a, .init a.lang⟩

/-- What may happen: the user types a word, selects a language, follows the link to an example, goes to another address, or has other
examples shown; the effect of the examples runs, or React renders them; an effect of the page runs, or something happens to the hook. -/
inductive Event
  | type (word random : Str)
  | select (lang random : Str)
  | follow (i : Nat) (random : Str)
  | goto (search : Bytes) (random : Str)
  | shuffle (rs : List Nat)
  | effect (rs : List Nat)
  | render
  | fill (r : Nat) (random : Str)
  | ask
  | hook (e : Hook.Event) (random : Str)
  deriving DecidableEq, Repr

/-- App.tsx:92-100: a rendering of the page, which is one of the examples. -/
def Site.renders (s : Site) (a : Option App) : Option Site :=
  if s.examples.due then none else a.map fun a => ⟨a, s.examples.render a.lang⟩

/-- What an event does; nothing if it cannot happen. -/
def Site.step (langs : List Str) (tests : Str → List Str) (s : Site) : Event → Option Site
  -- Prompt.tsx:32-34
  | .type word random => s.renders (s.app.step langs (.address (.change s.app.lang word) random))
  -- SelectLanguage.tsx:108-110, Prompt.tsx:25-27; the list has all languages (C85)
  | .select lang random =>
    if lang ∈ langs then s.renders (s.app.step langs (.address (.change lang s.app.page.word) random)) else none
  -- Examples.tsx:35-40
  | .follow i random =>
    (s.examples.words[i]?).bind fun w => s.renders (s.app.step langs (.address (.click s.examples.lang w) random))
  | .goto search random => s.renders (s.app.step langs (.address (.goto search) random))
  -- Examples.tsx:34
  | .shuffle rs => if s.app.broken then none else some { s with examples := s.examples.shuffle langs tests rs }
  | .effect rs =>
    if s.app.broken || !s.examples.due then none else some { s with examples := s.examples.effect langs tests rs }
  | .render => if s.app.broken || s.examples.due then none else some { s with examples := s.examples.render s.examples.lang }
  -- App.tsx:47-62
  | .fill r random => s.renders (s.app.step langs (.address (.effect s.app.lang (sample r (tests s.app.lang))) random))
  | .ask => (s.app.step langs .ask).map fun a => { s with app := a }
  | .hook e random =>
    if e = .render then s.renders (s.app.step langs (.hook e random)) else (s.app.step langs (.hook e random)).map fun a => { s with app := a }

/-- A sequence of events. -/
def Site.steps (langs : List Str) (tests : Str → List Str) (s : Site) : List Event → Option Site
  | [] => some s
  | e :: es => (s.step langs tests e).bind fun s => s.steps langs tests es

end Verif.Site
