import Verif.Spec.Subword
import Verif.Model.Procedure

/-! Vocabulary for statements about the procedure. -/

namespace Verif.Spec.Procedure

open Verif.Spec.Subword

/-! ## Replacing, also with overlapping replacements -/

/-- Whether every gap between replacements is inside the word. -/
def Inside (len : Nat) : Nat → List Repl → Prop
  | off, [] => off ≤ len
  | off, r :: rs => off ≤ r.start ∧ r.start ≤ len ∧ Inside len r.stop rs

/-- The text after the replacements, from `off` on. -/
def splice {α : Type} (new : Bytes → List α) (t : List α) : Nat → List Repl → List α
  | off, [] => t.drop off
  | off, r :: rs => (t.drop off).take (r.start - off) ++ new r.word ++ splice new t r.stop rs

/-- Bytes at a level. -/
def at_ (lvl : Int) (w : Bytes) : Tagged := w.map fun b => (b, lvl)

/-- The text as later rules see it: what was transcribed is hidden behind NUL characters. -/
def hidden (t : Tagged) : Bytes := t.map fun x => if x.2 = 2 then 0 else x.1

/-- A replacement touches nothing that was transcribed. -/
def Fresh (t : Tagged) (r : Repl) : Prop :=
  ∀ p, r.start ≤ p → p < r.stop → ∀ x, t[p]? = some x → x.2 ≠ 2

/-- Running the rules one after another on text in which replaced parts are hidden and never replaced again. -/
inductive TranscribedOnce : List Rule → Tagged → Tagged → Prop
  | done (t : Tagged) : TranscribedOnce [] t t
  | rule {r : Rule} {rules : List Rule} {t t' : Tagged} (rs : List Repl)
      (seen : r.replacements (hidden t) = .ok rs) (inside : Inside t.length 0 rs) (fresh : ∀ x ∈ rs, Fresh t x)
      (rest : TranscribedOnce rules (splice (at_ 2) t 0 rs) t') : TranscribedOnce (r :: rules) t t'

/-- No match of a rule contains a NUL character. -/
def NoNul (r : Rule) : Prop :=
  ∀ w rs, r.replacements w = .ok rs → ∀ x ∈ rs, ∀ p, x.start ≤ p → p < x.stop → w[p]? ≠ some 0

/-! ## Well-behaved specs -/

/-- A rule which always finds proper matches and can always be interpolated. -/
def WellBehaved (r : Rule) : Prop := ∀ w, ∃ rs, r.replacements w = .ok rs ∧ Proper 0 w.length rs

/-! ## Traces -/

/-- No word equals the one before. -/
def NoRepeat : Bytes → List Bytes → Prop
  | _, [] => True
  | prev, w :: ws => prev ≠ w ∧ NoRepeat w ws

/-- The position of a step in the procedure. -/
def stage : TStep → Nat
  | .input => 0
  | .transliterate => 1
  | .normalize => 2
  | .rewrite => 3
  | .transcribe => 4
  | .syllabify => 5
  | .localize => 6

/-! ## Localizing -/

/-- The zero-width space. -/
def zwsp : Rune := 0x200B

/-- Japanese punctuation and what replaces it; the flags say whether a space is wanted before and after. -/
def japanese : List (Rune × Bool × Rune × Bool) :=
  [('。'.toNat, false, '.'.toNat, true), ('、'.toNat, false, ','.toNat, true),
   ('：'.toNat, false, ':'.toNat, true), ('！'.toNat, false, '!'.toNat, true),
   ('？'.toNat, false, '?'.toNat, true), ('〜'.toNat, false, '~'.toNat, false),
   ('「'.toNat, true, '\''.toNat, false), ('」'.toNat, false, '\''.toNat, true),
   ('『'.toNat, true, '"'.toNat, false), ('』'.toNat, false, '"'.toNat, true)]

/-- A space or nothing. -/
def space (b : Bool) : List Rune := if b then [' '.toNat] else []

/-- The neighbour of a letter on one side wants no space: it is punctuation, white space or missing. -/
def NoSpace (c : Option Rune) : Prop := ∀ x, c = some x → Unicode.isPunct x = true ∨ Unicode.isSpace x = true

open Classical in
/-- What localizing a letter of Japanese text gives, with its neighbours. -/
noncomputable def japanesePiece (prev : Option Rune) (c : Rune) (next : Option Rune) : List Rune :=
  if c = zwsp then [] else
    match japanese.lookup c with
    | some (l, x, r) => space (l && decide (¬ NoSpace prev)) ++ [x] ++ space (r && decide (¬ NoSpace next))
    | none => [c]

/-- The pieces of a text. -/
noncomputable def japanesePieces : Option Rune → List Rune → List (List Rune)
  | _, [] => []
  | prev, c :: cs => japanesePiece prev c cs.head? :: japanesePieces (some c) cs

end Verif.Spec.Procedure
