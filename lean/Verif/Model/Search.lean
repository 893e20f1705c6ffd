import Verif.Model.Site

/-!
# Model of the search in the list of languages (web/src/components/SelectLanguage.tsx, `Hangul.disassemble` of hangul-js)

`Fuse` is an arbitrary function of the options and the query.  Texts are lists of UTF-16 code units; both parts of a surrogate pair are
no Hangul, and stay beside each other.  The source of hangul-js is not available here; its function was written down from memory.
-/

namespace Verif.Search

open Verif.Js (Str)
open Verif.Site (Choice sortBy flags)
open Verif.Address (lit)

/-! ## hangul-js -/

/-- `CHO`. -/
def cho : List Nat := lit "ㄱㄲㄴㄷㄸㄹㅁㅂㅃㅅㅆㅇㅈㅉㅊㅋㅌㅍㅎ"

/-- `JUNG`. -/
def jung : List Str :=
  ["ㅏ", "ㅐ", "ㅑ", "ㅒ", "ㅓ", "ㅔ", "ㅕ", "ㅖ", "ㅗ", "ㅗㅏ", "ㅗㅐ", "ㅗㅣ", "ㅛ", "ㅜ", "ㅜㅓ", "ㅜㅔ", "ㅜㅣ", "ㅠ", "ㅡ", "ㅡㅣ", "ㅣ"].map lit

/-- `JONG`. -/
def jong : List Str :=
  ["", "ㄱ", "ㄲ", "ㄱㅅ", "ㄴ", "ㄴㅈ", "ㄴㅎ", "ㄷ", "ㄹ", "ㄹㄱ", "ㄹㅁ", "ㄹㅂ", "ㄹㅅ", "ㄹㅌ", "ㄹㅍ", "ㄹㅎ", "ㅁ", "ㅂ", "ㅂㅅ", "ㅅ", "ㅆ", "ㅇ",
    "ㅈ", "ㅊ", "ㅋ", "ㅌ", "ㅍ", "ㅎ"].map lit

/-- `COMPLETE_JUNG`. -/
def completeJung : List Nat := lit "ㅏㅐㅑㅒㅓㅔㅕㅖㅗㅘㅙㅚㅛㅜㅝㅞㅟㅠㅡㅢㅣ"

/-- `COMPLETE_JONG` without the empty one in front. -/
def completeJong : List Nat := lit "ㄱㄲㄳㄴㄵㄶㄷㄹㄺㄻㄼㄽㄾㄿㅀㅁㅂㅄㅅㅆㅇㅈㅊㅋㅌㅍㅎ"

/-- The letters of a code unit in `disassemble`. -/
def letters (u : Nat) : Str :=
  if 0xAC00 ≤ u ∧ u ≤ 0xD7A3 then
    let code := u - 0xAC00
    cho.getD (code / 28 / 21) 0 :: jung.getD (code / 28 % 21) [] ++ jong.getD (code % 28) []
  else if u ∈ cho then [u]
  else if u ∈ completeJong then jong.getD (completeJong.idxOf u + 1) []
  else if u ∈ completeJung then jung.getD (completeJung.idxOf u) []
  else [u]

/-- `Hangul.disassemble(s, true)` and `Hangul.d(s, true)`. -/
def grouped (s : Str) : List Str := s.map letters

/-- `Hangul.disassemble(s)` and `Hangul.d(s)`. -/
def disassemble (s : Str) : Str := (grouped s).flatten

/-! ## SelectLanguage.tsx -/

/-- What is used of a spec. -/
structure Lang where
  id : Str
  code2 : Str
  code3 : Str
  english : Str
  korean : Str
  deriving DecidableEq, Repr

/-- SelectLanguage.tsx:16-34: what is searched. -/
structure Fields where
  code2 : Str
  code3 : Str
  en : Str
  ko : Str
  koSyll : Str
  koInit : Str
  deriving DecidableEq, Repr

/-- SelectLanguage.tsx:10-35: an option. -/
structure Opt extends Choice where
  search : Fields
  deriving DecidableEq, Repr

/-- SelectLanguage.tsx:47-74: the options. -/
def options (specs : List Lang) : List Opt :=
  (sortBy (·.korean) specs).map fun s =>
    { key := s.id, value := s.id, flag := flags.lookup s.id, text := s.korean,
      search := ⟨s.code2, s.code3, s.english, s.korean, disassemble s.korean, (grouped s.korean).filterMap List.head?⟩ }

/-- SelectLanguage.tsx:76-87: the texts in which `Fuse` searches. -/
def Opt.keys (o : Opt) : List Str :=
  [o.search.code2, o.search.code3, o.search.en, o.search.ko, o.search.koSyll, o.search.koInit]

/-- SelectLanguage.tsx:43-45: the property and the state of the last rendering, the state for the next one, the options in the ref
`fuse`, and whether the effects of the last rendering are still to run. -/
structure Select where
  specs : List Lang
  shown : List Opt
  next : List Opt
  fuse : Option (List Opt)
  due : Bool

/-- The first rendering. -/
def Select.init (specs : List Lang) : Select := ⟨specs, [], [], none, true⟩

/-- What may happen: React renders the list, with any specs, or runs the effects of the last rendering. -/
inductive Event
  | render (specs : List Lang)
  | effects

/-- SelectLanguage.tsx:47-87.  That effects do not run again without a change makes no difference, since they would do the same. -/
def Select.step (s : Select) : Event → Option Select
  | .render specs => if s.due then none else some { s with specs := specs, shown := s.next, due := true }
  | .effects => if s.due then some { s with next := options s.specs, fuse := some s.shown, due := false } else none

/-- A sequence of events. -/
def Select.steps (s : Select) : List Event → Option Select
  | [] => some s
  | e :: es => (s.step e).bind fun s => s.steps es

/-- SelectLanguage.tsx:89-95 `search`. -/
def Select.search (engine : List Opt → Str → List Opt) (s : Select) (query : Str) : List Opt :=
  match s.fuse with
  | none => []
  | some opts => engine opts (disassemble query)

end Verif.Search
