import Verif.Go.Hangul

/-!
# Model of `internal/jamo/jamo.go`
-/

namespace Verif.Jamo
open Verif.Hangul

/-- The fields `lmt` of `composer` and the local variable `score` of `Compose`
(jamo.go:38-42, 98-102).  `bufio.Reader` over a string is the list of remaining runes and the
output buffer is the returned string. -/
structure St where
  lead : Rune
  medial : Rune
  tail : Rune
  score : Int
  deriving DecidableEq, Repr

/-- The state before the loop (jamo.go:24-27, 98-102). -/
def St.init : St := ⟨0, 0, 0, 0⟩

/-- `composer.write` (jamo.go:69-88): the bytes written and the cleared state. -/
def write (s : St) : Bytes × St :=
  if s.lead = 0 ∧ s.medial = 0 ∧ s.tail = 0 then ([], s)
  else
    let l := if s.lead = 0 then 0x3147 else s.lead
    let m := if s.medial = 0 then 0x3161 else s.medial
    (encodeRune (join l m s.tail), { s with lead := 0, medial := 0, tail := 0 })

/-- `c.lmt[score] = ch` (jamo.go:158-160). -/
def put (s : St) (score : Int) (ch : Rune) : St :=
  if score = 0 then { s with lead := ch }
  else if score = 1 then { s with medial := ch }
  else if score = 2 then { s with tail := ch }
  else s

/-- One iteration of the loop in `Compose` for the character `ch` (jamo.go:104-161).
`prevScore` is the value of `score` at the head of the loop. -/
def step (s : St) (ch : Rune) (isTail : Bool) : Bytes × St :=
  let prevScore := s.score
  if !isHangul ch then
    -- jamo.go:116-125
    let (out, s) := if prevScore ≠ -1 then write s else ([], s)
    (out ++ encodeRune ch, s)
  else if !isJaeum ch && !isMoeum ch then
    -- jamo.go:128-141
    let (out, s) := write s
    let (l, m, t) := split ch
    (out, { s with lead := l, medial := m, tail := t, score := if t = 0 then 1 else 2 })
  else
    -- jamo.go:144-160
    let score : Int := if isMoeum ch then 1 else if isTail then 2 else 0
    let (out, s) := if score ≤ prevScore then write s else ([], s)
    let s := if score ≠ -1 then put s score ch else s
    (out, { s with score := score })

/-- The loop of `Compose` together with `read` (jamo.go:46-65, 91-169): a hyphen only marks the next
character as a tail. -/
def loop : Bool → St → List Rune → Bytes
  | _, s, [] => if s.score ≠ -1 then (write s).1 else []
  | isTail, s, ch :: rest =>
    if ch = 0x2D then loop true s rest
    else
      let (out, s') := step s ch isTail
      out ++ loop false s' rest

/-- `jamo.ComposeHangul` (jamo.go:23-28). -/
def composeHangul (word : Bytes) : Bytes := loop false St.init (runes word)

end Verif.Jamo
