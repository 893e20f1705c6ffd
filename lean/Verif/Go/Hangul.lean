import Verif.Go.Utf8

/-!
# `github.com/suapapa/go_hangul`

The third-party package used by `internal/jamo` (not in `/repo`; recalled from its documentation and
source, part of the trusted base).
-/

namespace Verif.Hangul

/-- `hangul.IsJaeum`: compatibility consonants. -/
def isJaeum (r : Rune) : Bool := (0x3131 ≤ r && r ≤ 0x314E) || (0x3165 ≤ r && r ≤ 0x3186)

/-- `hangul.IsMoeum`: compatibility vowels. -/
def isMoeum (r : Rune) : Bool := (0x314F ≤ r && r ≤ 0x3163) || (0x3187 ≤ r && r ≤ 0x318E)

/-- `hangul.IsHangul`: a composed syllable or a compatibility Jamo. -/
def isHangul (r : Rune) : Bool := (0xAC00 ≤ r && r ≤ 0xD7A3) || isJaeum r || isMoeum r

/-- Compatibility Jamo of the 19 leads, in syllable order. -/
def compatLeads : List Rune :=
  [0x3131, 0x3132, 0x3134, 0x3137, 0x3138, 0x3139, 0x3141, 0x3142, 0x3143, 0x3145, 0x3146, 0x3147,
   0x3148, 0x3149, 0x314A, 0x314B, 0x314C, 0x314D, 0x314E]

/-- Compatibility Jamo of the 27 tails, in syllable order. -/
def compatTails : List Rune :=
  [0x3131, 0x3132, 0x3133, 0x3134, 0x3135, 0x3136, 0x3137, 0x3139, 0x313A, 0x313B, 0x313C, 0x313D,
   0x313E, 0x313F, 0x3140, 0x3141, 0x3142, 0x3144, 0x3145, 0x3146, 0x3147, 0x3148, 0x314A, 0x314B,
   0x314C, 0x314D, 0x314E]

/-- Index of a lead given as conjoining or compatibility Jamo. -/
def leadIdx (r : Rune) : Option Nat :=
  if 0x1100 ≤ r ∧ r ≤ 0x1112 then some (r - 0x1100) else compatLeads.idxOf? r

/-- Index of a medial given as conjoining or compatibility Jamo. -/
def medialIdx (r : Rune) : Option Nat :=
  if 0x1161 ≤ r ∧ r ≤ 0x1175 then some (r - 0x1161)
  else if 0x314F ≤ r ∧ r ≤ 0x3163 then some (r - 0x314F) else none

/-- Index of a tail (0 for none) given as conjoining or compatibility Jamo. -/
def tailIdx (r : Rune) : Option Nat :=
  if r = 0 then some 0
  else if 0x11A8 ≤ r ∧ r ≤ 0x11C2 then some (r - 0x11A7)
  else (compatTails.idxOf? r).map (· + 1)

/-- `hangul.Join`: composes a syllable; U+FFFD if a part is not a modern Jamo of its class. -/
def join (l m t : Rune) : Rune :=
  match leadIdx l, medialIdx m, tailIdx t with
  | some i, some j, some k => 0xAC00 + (i * 21 + j) * 28 + k
  | _, _, _ => runeError

/-- `hangul.Split`: conjoining Jamo of a composed syllable (tail 0 if there is none). -/
def split (r : Rune) : Rune × Rune × Rune :=
  let s := r - 0xAC00
  let k := s % 28
  (0x1100 + s / 588, 0x1161 + s % 588 / 28, if k = 0 then 0 else 0x11A7 + k)

end Verif.Hangul
