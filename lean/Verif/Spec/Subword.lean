import Verif.Model.Subword

/-!
# Specification of replacing and splitting

An edited text is described by its pieces: untouched gaps and replaced parts.  Each byte carries the
level it was produced at.
-/

namespace Verif.Spec.Subword

/-- A byte with its level. -/
abbrev Tagged := List (UInt8 × Int)

/-- One edit: an untouched gap followed by a part `old` that is replaced by `new`. -/
structure Edit where
  gap : Tagged
  old : Tagged
  new : Bytes

/-- The text before the edits. -/
def before (es : List Edit) (rest : Tagged) : Tagged := es.flatMap (fun e => e.gap ++ e.old) ++ rest

/-- The text after the edits; new bytes are at level `lvl`. -/
def after (lvl : Int) (es : List Edit) (rest : Tagged) : Tagged :=
  es.flatMap (fun e => e.gap ++ e.new.map (fun b => (b, lvl))) ++ rest

/-- The replacements that describe the edits, counting offsets from `off`. -/
def replsOf (off : Nat) : List Edit → List Repl
  | [] => []
  | e :: es =>
    let start := off + e.gap.length
    let stop := start + e.old.length
    ⟨start, stop, e.new⟩ :: replsOf stop es

/-- Sorted, disjoint replacements inside a word of length `len`, all at or after `off`. -/
def Proper (off len : Nat) : List Repl → Prop
  | [] => off ≤ len
  | r :: rs => off ≤ r.start ∧ r.start ≤ r.stop ∧ Proper r.stop len rs

/-- What a client sees of a replacer whose new bytes are at level `lvl`: it starts with a text, and in each round
passes replacements in batches, which together describe edits of the current text, and asks for the word.  The words
it gets, and the text at the end. -/
inductive Session (lvl : Int) : Tagged → List (List (List Repl)) → List Bytes → Tagged → Prop
  | done (t : Tagged) : Session lvl t [] [] t
  | round (es : List Edit) (rest : Tagged) (batches : List (List Repl)) {more : List (List (List Repl))}
      {words : List Bytes} {t : Tagged} :
    batches.flatten = replsOf 0 es → Session lvl (after lvl es rest) more words t →
    Session lvl (before es rest) (batches :: more) ((after lvl es rest).map (·.1) :: words) t

/-- A character with its level. -/
abbrev LChars := List (Rune × Int)

/-- Two characters have the same level. -/
def sameLevel (a b : Rune × Int) : Bool := a.2 == b.2

/-- A block of characters of one level as a subword. -/
def chunk (g : LChars) : Subword := ⟨encode (g.map (·.1)), (g.head?.map (·.2)).getD 0⟩

/-- The maximal runs of equal levels. -/
def chunks (cs : LChars) : List Subword := (cs.splitBy sameLevel).map chunk

/-- No two neighbours have the same level. -/
def Alternating : List Subword → Prop
  | a :: b :: t => a.level ≠ b.level ∧ Alternating (b :: t)
  | _ => True

/-- The bytes of a list of subwords with their levels. -/
def tagged (sws : List Subword) : Tagged := sws.flatMap (fun s => s.word.map (fun b => (b, s.level)))

end Verif.Spec.Subword
