import Verif.Go.Js

/-!
# Model of the address of the page (web/src/components/App.tsx and Examples.tsx)

The page keeps the language and the word in the query of its address.  `URLSearchParams` and what a browser makes of an address are
modelled after the URL Standard, `useSearchParams` and `Link` after react-router 6.6: they navigate to an address which is relative to
the page, and a rendering sees the query which the browser made of it.  The query of the page is ASCII, since a browser
percent-encodes everything else.
-/

namespace Verif.Address

open Verif.Js

/-- The conversion to a `USVString`: lone surrogates become U+FFFD. -/
def usv (s : Str) : Str := units (chars s)

/-- The characters of a literal. -/
def lit (s : String) : Str := s.toList.map Char.toNat

/-! ## URLSearchParams -/

/-- The list of a `URLSearchParams`. -/
abbrev Params := List (Str × Str)

/-- `URLSearchParams.get`. -/
def Params.get (ps : Params) (name : Str) : Option Str := ps.lookup name

/-- `URLSearchParams.has`. -/
def Params.has (ps : Params) (name : Str) : Bool := (ps.get name).isSome

/-- `URLSearchParams.set`: the first value of this name is replaced, others are removed; with no such name it is appended. -/
def Params.put (name value : Str) : Params → Params
  | [] => [(name, value)]
  | (n, v) :: rest => if n = name then (n, value) :: rest.filter (·.1 ≠ name) else (n, v) :: Params.put name value rest

/-- `URLSearchParams.set` with the conversion of its arguments. -/
def Params.set (ps : Params) (name value : Str) : Params := Params.put (usv name) (usv value) ps

/-- A hexadecimal digit. -/
def hexDigit (n : Nat) : UInt8 := if n < 10 then UInt8.ofNat (0x30 + n) else UInt8.ofNat (0x37 + n)

/-- The value of a hexadecimal digit. -/
def hexValue (b : UInt8) : Option Nat :=
  if 0x30 ≤ b.toNat ∧ b.toNat ≤ 0x39 then some (b.toNat - 0x30)
  else if 0x41 ≤ b.toNat ∧ b.toNat ≤ 0x46 then some (b.toNat - 0x37)
  else if 0x61 ≤ b.toNat ∧ b.toNat ≤ 0x66 then some (b.toNat - 0x57)
  else none

/-- Percent-encode a byte. -/
def percent (b : UInt8) : Bytes := [0x25, hexDigit (b.toNat / 16), hexDigit (b.toNat % 16)]

/-- The bytes outside of the application/x-www-form-urlencoded percent-encode set. -/
def plainByte (b : UInt8) : Bool :=
  (0x30 ≤ b.toNat && b.toNat ≤ 0x39) || (0x41 ≤ b.toNat && b.toNat ≤ 0x5A) || (0x61 ≤ b.toNat && b.toNat ≤ 0x7A) ||
    b == 0x2A || b == 0x2D || b == 0x2E || b == 0x5F

/-- The application/x-www-form-urlencoded serializer, for a byte. -/
def formByte (b : UInt8) : Bytes := if b = 0x20 then [0x2B] else if plainByte b then [b] else percent b

/-- The same for a text. -/
def formText (s : Str) : Bytes := (encodeText s).flatMap formByte

/-- The same for a list. -/
def serialize : Params → Bytes
  | [] => []
  | [(n, v)] => formText n ++ 0x3D :: formText v
  | (n, v) :: p :: rest => formText n ++ 0x3D :: formText v ++ 0x26 :: serialize (p :: rest)

/-- Split at all bytes `c`. -/
def splitOn (c : UInt8) : Bytes → List Bytes
  | [] => [[]]
  | b :: rest =>
    if b = c then [] :: splitOn c rest
    else match splitOn c rest with
      | [] => [[b]]
      | x :: xs => (b :: x) :: xs

/-- What is before the first byte `c` and what is behind it. -/
def cut (c : UInt8) : Bytes → Bytes × Bytes
  | [] => ([], [])
  | b :: rest => if b = c then ([], rest) else (b :: (cut c rest).1, (cut c rest).2)

/-- Percent-decode: a percent sign without two digits stands for itself. -/
def percentDecode : Bytes → Bytes
  | b :: x :: y :: rest =>
    if b = 0x25 then
      match hexValue x, hexValue y with
      | some i, some j => UInt8.ofNat (i * 16 + j) :: percentDecode rest
      | _, _ => b :: percentDecode (x :: y :: rest)
    else b :: percentDecode (x :: y :: rest)
  | s => s

/-- The application/x-www-form-urlencoded parser, for a name or a value. -/
def formValue (s : Bytes) : Str :=
  units (decodeBytes none (percentDecode (s.map fun b => if b = 0x2B then 0x20 else b)))

/-- The application/x-www-form-urlencoded parser. -/
def parse (s : Bytes) : Params :=
  ((splitOn 0x26 s).filter (· ≠ [])).map fun x => (formValue (cut 0x3D x).1, formValue (cut 0x3D x).2)

/-- `new URLSearchParams(search)`: a question mark at the beginning is dropped. -/
def params (search : Bytes) : Params :=
  match search with
  | 0x3F :: rest => parse rest
  | _ => parse search

/-! ## Navigation -/

/-- The special-query percent-encode set. -/
def queryByte (b : UInt8) : Bytes :=
  if b.toNat ≤ 0x20 ∨ 0x7F ≤ b.toNat ∨ b ∈ [0x22, 0x23, 0x27, 0x3C, 0x3E] then percent b else [b]

/-- What is left of a text without C0 control characters and blanks at its end. -/
def trimEnd (s : Str) : Str := (s.reverse.dropWhile (· ≤ 0x20)).reverse

/-- The query of the page after navigating to the text, which begins with a question mark: a number sign begins the fragment; control
characters and blanks at the end of the address are dropped, and tabs and line breaks everywhere. -/
def browse (to : Str) : Bytes :=
  let search := to.takeWhile (· ≠ 0x23)
  let search := if 0x23 ∈ to then search else trimEnd search
  (encodeText (search.filter (· ∉ [0x09, 0x0A, 0x0D]))).flatMap queryByte

/-- `setSearchParams`: navigate to a question mark and the list. -/
def navigate (ps : Params) : Bytes := browse ((0x3F :: serialize ps).map UInt8.toNat)

/-! ## The page -/

/-- App.tsx:38, 71-75: the query of the page, the search parameters of the first rendering, which `handleChange` has captured, and
whether a rendering of the same query still has them. -/
structure Page where
  search : Bytes
  captured : Params
  first : Bool
  deriving DecidableEq, Repr

/-- The page is opened at an address with this query. -/
def openPage (search : Bytes) : Page := ⟨search, params search, true⟩

/-- App.tsx:38: the search parameters of a rendering. -/
def Page.params (p : Page) : Params := if p.first then p.captured else Address.params p.search

/-- App.tsx:39: the language, if the address has one which is not empty; otherwise it is random. -/
def Page.lang (p : Page) : Option Str := (p.params.get (lit "lang")).filter (· ≠ [])

/-- App.tsx:40: the word. -/
def Page.word (p : Page) : Str := (p.params.get (lit "word")).getD []

/-- A query is rendered; the parameters are made anew if it is not the one before. -/
def Page.go (p : Page) (search : Bytes) : Page := { p with search := search, first := p.first && decide (search = p.search) }

/-- What may happen: the effect of a rendering with a random language and a random example of the language, if it has any; the user
types or selects something, the page follows a link to an example, or the user goes back or forward to a query of this page. -/
inductive Event
  | effect (lang : Str) (word : Option Str)
  | change (lang word : Str)
  | click (lang word : Str)
  | goto (search : Bytes)
  deriving DecidableEq, Repr

/-- What an event does. -/
def Page.step (p : Page) : Event → Page
  | .effect lang word =>
    -- App.tsx:47-62
    let ps := p.params
    let ps1 := if ps.has (lit "lang") then ps else ps.set (lit "lang") (p.lang.getD lang)
    let ps2 := if ps1.has (lit "word") then ps1 else match word with | some w => ps1.set (lit "word") w | none => ps1
    let p := if p.first then { p with captured := ps2 } else p
    if ps.has (lit "lang") && (ps1.has (lit "word") || word.isNone) then p else p.go (navigate ps2)
  | .change lang word =>
    -- App.tsx:71-75
    let ps := (p.captured.set (lit "lang") lang).set (lit "word") word
    { p with captured := ps }.go (navigate ps)
  | .click lang word =>
    -- Examples.tsx:37
    p.go (browse (lit "?lang=" ++ lang ++ lit "&word=" ++ word))
  | .goto search => p.go search

/-- What a sequence of events does. -/
def Page.steps (p : Page) (es : List Event) : Page := es.foldl Page.step p

end Verif.Address
