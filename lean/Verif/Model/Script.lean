import Verif.Go.Unicode

/-!
# Model of `internal/scripts` and script.go
-/

namespace Verif

open Unicode

/-- The implementations of the interface `script` (script.go:8-12). -/
inductive Script
  | latn
  | cyrl
  | geor
  | grek
  | hrkt
  deriving DecidableEq, Repr

/-- `Is`: internal/scripts/latn.go:14-16, cyrl.go:11-13, geor.go:11-13, grek.go:11-13,
hrkt.go:11-15. -/
def Script.is : Script → Rune → Bool
  | .latn, ch => inTable latinTable ch
  | .cyrl, ch => inTable cyrillicTable ch || isMark ch
  | .geor, ch => inTable georgianTable ch
  | .grek, ch => inTable greekTable ch
  | .hrkt, ch => ch == 0x30FC || inTable hiraganaTable ch || inTable katakanaTable ch

/-- `Normalize`: internal/scripts/latn.go:22-29, cyrl.go:16-18, geor.go:17-19, grek.go:16-18,
hrkt.go:18-29.  The decomposition is known for Latin letters only; `normalize` is called on no other
runes (procedure.go:90). -/
def Script.normalize : Script → Rune → Rune
  | .latn, ch => toLower ((latinDecomp ch).getD ch)
  | .cyrl, ch => toLower ch
  | .geor, ch => ch
  | .grek, ch => toLower ch
  | .hrkt, ch => if 0x3040 ≤ ch ∧ ch ≤ 0x309F then ch + 96 else ch

/-- internal/scripts/hrkt.go:32-57 `Hrkt.LocalizePunct` as runes. -/
def hrktPunct (p : Rune) : List Rune :=
  if p = 0x3002 then [0x2E, 0x20]
  else if p = 0x3001 then [0x2C, 0x20]
  else if p = 0xFF1A then [0x3A, 0x20]
  else if p = 0xFF01 then [0x21, 0x20]
  else if p = 0xFF1F then [0x3F, 0x20]
  else if p = 0x301C then [0x7E]
  else if p = 0x300C then [0x20, 0x27]
  else if p = 0x300D then [0x27, 0x20]
  else if p = 0x300E then [0x20, 0x22]
  else if p = 0x300F then [0x22, 0x20]
  else [p]

/-- `LocalizePunct` (as runes): internal/scripts/latn.go:32-34, cyrl.go:21-23, geor.go:22-24,
grek.go:21-23, hrkt.go:32-57. -/
def Script.localizePunct : Script → Rune → List Rune
  | .hrkt, p => hrktPunct p
  | _, p => [p]

/-- script.go:15-33 `getScript` with the registry. -/
def getScript (name : Bytes) : Option Script :=
  if name = [] then some .latn
  else if name = str "Latn" then some .latn
  else if name = str "Cyrl" then some .cyrl
  else if name = str "Geor" then some .geor
  else if name = str "Grek" then some .grek
  else if name = str "Hrkt" then some .hrkt
  else none

end Verif
